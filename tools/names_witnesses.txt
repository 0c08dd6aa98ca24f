rfc1155.NetworkAddress rfc2459.NetworkAddress 64 4 0 0 0 0
rfc1155.NetworkAddress rfc3280.NetworkAddress 64 4 0 0 0 0
rfc1155.NetworkAddress rfc5280.NetworkAddress 64 4 0 0 0 0
rfc1155.ObjectSyntax rfc1902.ObjectSyntax 5 0
rfc1155.SimpleSyntax rfc1902.SimpleSyntax 5 0
rfc1157.Community rfc5934.Community 4 0
rfc1157.GetNextRequestPDU rfc1905.GetNextRequestPDU 161 11 2 1 255 2 1 255 2 1 255 48 0
rfc1157.GetRequestPDU rfc1905.GetRequestPDU 160 11 2 1 255 2 1 255 2 1 255 48 0
rfc1157.SetRequestPDU rfc1905.SetRequestPDU 163 11 2 1 255 2 1 255 2 1 255 48 0
rfc1157.VarBind rfc1905.VarBind 48 10 6 1 42 2 5 0 128 0 0 0
rfc1157.VarBindList rfc1905.VarBindList 48 12 48 10 6 1 42 2 5 0 128 0 0 0
rfc1901.Message rfc1157.Message 48 7 2 1 1 4 0 5 0
rfc1902.ApplicationSyntax rfc1155.ApplicationSyntax 70 1 0
rfc1902.ObjectSyntax rfc1155.ObjectSyntax 70 1 0
rfc1905.GetNextRequestPDU rfc1157.GetNextRequestPDU 161 18 2 1 255 2 1 255 2 1 0 48 7 48 5 6 1 42 128 0
rfc1905.GetRequestPDU rfc1157.GetRequestPDU 160 18 2 1 255 2 1 255 2 1 0 48 7 48 5 6 1 42 128 0
rfc1905.SetRequestPDU rfc1157.SetRequestPDU 163 18 2 1 255 2 1 255 2 1 0 48 7 48 5 6 1 42 128 0
rfc1905.VarBind rfc1157.VarBind 48 5 6 1 42 128 0
rfc1905.VarBindList rfc1157.VarBindList 48 7 48 5 6 1 42 128 0
rfc2251.Attribute rfc2315.Attribute 48 4 4 0 49 0
rfc2251.Attribute rfc2459.Attribute 48 4 4 0 49 0
rfc2251.Attribute rfc2985.Attribute 48 4 4 0 49 0
rfc2251.Attribute rfc2986.Attribute 48 4 4 0 49 0
rfc2251.Attribute rfc3125.Attribute 48 4 4 0 49 0
rfc2251.Attribute rfc3280.Attribute 48 4 4 0 49 0
rfc2251.Attribute rfc3852.Attribute 48 4 4 0 49 0
rfc2251.Attribute rfc5126.Attribute 48 4 4 0 49 0
rfc2251.Attribute rfc5280.Attribute 48 4 4 0 49 0
rfc2251.Attribute rfc5652.Attribute 48 4 4 0 49 0
rfc2251.Attribute rfc5755.Attribute 48 4 4 0 49 0
rfc2251.Attribute rfc5934.Attribute 48 4 4 0 49 0
rfc2251.Attribute rfc7030.Attribute 48 4 4 0 49 0
rfc2251.Attribute rfc7894.Attribute 48 4 4 0 49 0
rfc2251.Attribute rfc7906.Attribute 48 4 4 0 49 0
rfc2251.AttributeType rfc2459.AttributeType 4 0
rfc2251.AttributeType rfc2985.AttributeType 4 0
rfc2251.AttributeType rfc2986.AttributeType 4 0
rfc2251.AttributeType rfc3125.AttributeType 4 0
rfc2251.AttributeType rfc3280.AttributeType 4 0
rfc2251.AttributeType rfc3739.AttributeType 4 0
rfc2251.AttributeType rfc5280.AttributeType 4 0
rfc2251.AttributeType rfc6010.AttributeType 4 0
rfc2251.AttributeType rfc6031.AttributeType 4 0
rfc2251.AttributeType rfc7292.AttributeType 4 0
rfc2251.AttributeValueAssertion rfc2315.AttributeValueAssertion 48 4 4 0 4 0
rfc2251.Controls rfc2511.Controls 48 4 48 2 4 0
rfc2251.Controls rfc4211.Controls 48 4 48 2 4 0
rfc2314.Attributes rfc5208.Attributes 49 7 48 5 6 1 42 49 0
rfc2314.Signature rfc2560.Signature 3 1 0
rfc2314.Signature rfc6960.Signature 3 1 0
rfc2315.Attribute rfc2251.Attribute 48 5 6 1 42 49 0
rfc2315.AttributeValueAssertion rfc2251.AttributeValueAssertion 48 5 6 1 42 5 0
rfc2315.Attributes rfc5208.Attributes 49 7 48 5 6 1 42 49 0
rfc2315.ContentInfo rfc2985.ContentInfo 48 3 6 1 43
rfc2315.ContentInfo rfc3161.ContentInfo 48 3 6 1 43
rfc2315.ContentInfo rfc3852.ContentInfo 48 3 6 1 43
rfc2315.ContentInfo rfc5126.ContentInfo 48 3 6 1 43
rfc2315.ContentInfo rfc5636.ContentInfo 48 3 6 1 43
rfc2315.ContentInfo rfc5652.ContentInfo 48 3 6 1 43
rfc2315.ContentInfo rfc5755.ContentInfo 48 3 6 1 43
rfc2315.ContentInfo rfc5940.ContentInfo 48 3 6 1 43
rfc2315.ContentInfo rfc7292.ContentInfo 48 3 6 1 43
rfc2315.DigestedData rfc3852.DigestedData 48 19 2 1 255 48 3 6 1 42 48 7 6 1 42 160 2 5 0 4 0
rfc2315.DigestedData rfc5652.DigestedData 48 19 2 1 255 48 3 6 1 42 48 7 6 1 42 160 2 5 0 4 0
rfc2315.EncryptedData rfc5208.EncryptedData 48 13 2 1 255 48 8 6 1 42 48 3 6 1 42
rfc2315.EncryptedData rfc5958.EncryptedData 48 13 2 1 255 48 8 6 1 42 48 3 6 1 42
rfc2315.EncryptedKey rfc2511.EncryptedKey 4 0
rfc2315.EncryptedKey rfc4211.EncryptedKey 4 0
rfc2315.Signature rfc2560.Signature 3 1 0
rfc2315.Signature rfc6960.Signature 3 1 0
rfc2315.SignedData rfc3852.SignedData 48 8 2 1 6 48 3 6 1 42
rfc2315.SignedData rfc5126.SignedData 48 8 2 1 6 48 3 6 1 42
rfc2315.SignedData rfc5652.SignedData 48 8 2 1 6 48 3 6 1 42
rfc2437.RSAES_OAEP_params rfc3560.RSAES_OAEP_params 48 15 160 3 6 1 42 161 3 6 1 42 162 3 6 1 43
rfc2437.RSAES_OAEP_params rfc4055.RSAES_OAEP_params 48 15 160 3 6 1 42 161 3 6 1 42 162 3 6 1 43
rfc2437.RSAES_OAEP_params rfc8017.RSAES_OAEP_params 48 15 160 3 6 1 42 161 3 6 1 42 162 3 6 1 43
rfc2459.AccessDescription rfc3280.AccessDescription 48 10 6 1 42 165 5 161 3 22 1 65
rfc2459.AccessDescription rfc5280.AccessDescription 48 10 6 1 42 165 5 161 3 22 1 65
rfc2459.Attribute rfc2251.Attribute 48 5 6 1 42 49 0
rfc2459.AttributeType rfc2251.AttributeType 6 1 43
rfc2459.AttributeValue rfc2251.AttributeValue 5 0
rfc2459.AuthorityInfoAccessSyntax rfc3280.AuthorityInfoAccessSyntax 48 12 48 10 6 1 42 165 5 161 3 22 1 65
rfc2459.AuthorityInfoAccessSyntax rfc5280.AuthorityInfoAccessSyntax 48 12 48 10 6 1 42 165 5 161 3 22 1 65
rfc2459.AuthorityInfoAccessSyntax rfc5755.AuthorityInfoAccessSyntax 48 12 48 10 6 1 42 165 5 161 3 22 1 65
rfc2459.AuthorityInfoAccessSyntax rfc6960.AuthorityInfoAccessSyntax 48 12 48 10 6 1 42 165 5 161 3 22 1 65
rfc2459.AuthorityKeyIdentifier rfc3280.AuthorityKeyIdentifier 48 9 161 7 165 5 161 3 22 1 65
rfc2459.AuthorityKeyIdentifier rfc5280.AuthorityKeyIdentifier 48 9 161 7 165 5 161 3 22 1 65
rfc2459.AuthorityKeyIdentifier rfc5755.AuthorityKeyIdentifier 48 9 161 7 165 5 161 3 22 1 65
rfc2459.BuiltInStandardAttributes rfc3280.BuiltInStandardAttributes 48 5 163 3 19 1 48
rfc2459.BuiltInStandardAttributes rfc5280.BuiltInStandardAttributes 48 5 163 3 19 1 48
rfc2459.CertificateIssuer rfc3280.CertificateIssuer 48 7 165 5 161 3 22 1 65
rfc2459.CertificateIssuer rfc5280.CertificateIssuer 48 7 165 5 161 3 22 1 65
rfc2459.DirectoryString rfc2985.DirectoryString 22 1 48
rfc2459.DirectoryString rfc3125.DirectoryString 22 1 48
rfc2459.DirectoryString rfc3739.DirectoryString 22 1 48
rfc2459.DirectoryString rfc5126.DirectoryString 22 1 48
rfc2459.DirectoryString rfc5280.DirectoryString 22 1 48
rfc2459.DirectoryString rfc5917.DirectoryString 22 1 48
rfc2459.DirectoryString rfc7894.DirectoryString 22 1 48
rfc2459.DistributionPoint rfc3280.DistributionPoint 48 9 162 7 165 5 161 3 22 1 65
rfc2459.DistributionPoint rfc5280.DistributionPoint 48 9 162 7 165 5 161 3 22 1 65
rfc2459.DistributionPointName rfc3280.DistributionPointName 160 7 165 5 161 3 22 1 65
rfc2459.DistributionPointName rfc5280.DistributionPointName 160 7 165 5 161 3 22 1 65
rfc2459.EDIPartyName rfc3280.EDIPartyName 48 5 161 3 22 1 65
rfc2459.EDIPartyName rfc5280.EDIPartyName 48 5 161 3 22 1 65
rfc2459.ExtendedNetworkAddress rfc3280.ExtendedNetworkAddress 160 2 48 0
rfc2459.ExtendedNetworkAddress rfc5280.ExtendedNetworkAddress 160 2 48 0
rfc2459.GeneralName rfc2511.GeneralName 129 0
rfc2459.GeneralName rfc2560.GeneralName 129 0
rfc2459.GeneralName rfc3125.GeneralName 165 5 161 3 22 1 65
rfc2459.GeneralName rfc3161.GeneralName 165 5 161 3 22 1 65
rfc2459.GeneralName rfc3280.GeneralName 165 5 161 3 22 1 65
rfc2459.GeneralName rfc3739.GeneralName 165 5 161 3 22 1 65
rfc2459.GeneralName rfc5126.GeneralName 165 5 161 3 22 1 65
rfc2459.GeneralName rfc5275.GeneralName 165 5 161 3 22 1 65
rfc2459.GeneralName rfc5280.GeneralName 165 5 161 3 22 1 65
rfc2459.GeneralName rfc5755.GeneralName 165 5 161 3 22 1 65
rfc2459.GeneralName rfc6960.GeneralName 165 5 161 3 22 1 65
rfc2459.GeneralName rfc7906.GeneralName 165 5 161 3 22 1 65
rfc2459.GeneralNames rfc2634.GeneralNames 48 7 165 5 161 3 22 1 65
rfc2459.GeneralNames rfc3125.GeneralNames 48 7 165 5 161 3 22 1 65
rfc2459.GeneralNames rfc3280.GeneralNames 48 7 165 5 161 3 22 1 65
rfc2459.GeneralNames rfc5035.GeneralNames 48 7 165 5 161 3 22 1 65
rfc2459.GeneralNames rfc5126.GeneralNames 48 7 165 5 161 3 22 1 65
rfc2459.GeneralNames rfc5280.GeneralNames 48 7 165 5 161 3 22 1 65
rfc2459.GeneralNames rfc5697.GeneralNames 48 7 165 5 161 3 22 1 65
rfc2459.GeneralNames rfc5755.GeneralNames 48 7 165 5 161 3 22 1 65
rfc2459.GeneralNames rfc7906.GeneralNames 48 7 165 5 161 3 22 1 65
rfc2459.GeneralSubtree rfc3125.GeneralSubtree 48 5 129 0 129 1 0
rfc2459.GeneralSubtree rfc3280.GeneralSubtree 48 7 165 5 161 3 22 1 65
rfc2459.GeneralSubtree rfc5280.GeneralSubtree 48 7 165 5 161 3 22 1 65
rfc2459.GeneralSubtrees rfc3125.GeneralSubtrees 48 7 48 5 129 0 129 1 0
rfc2459.GeneralSubtrees rfc3280.GeneralSubtrees 48 9 48 7 165 5 161 3 22 1 65
rfc2459.GeneralSubtrees rfc5280.GeneralSubtrees 48 9 48 7 165 5 161 3 22 1 65
rfc2459.IssuerAltName rfc3280.IssuerAltName 48 7 165 5 161 3 22 1 65
rfc2459.IssuerAltName rfc5280.IssuerAltName 48 7 165 5 161 3 22 1 65
rfc2459.IssuingDistributionPoint rfc3280.IssuingDistributionPoint 48 20 160 9 160 7 165 5 161 3 22 1 65 129 1 0 130 1 0 132 1 0
rfc2459.IssuingDistributionPoint rfc5280.IssuingDistributionPoint 48 20 160 9 160 7 165 5 161 3 22 1 65 129 1 0 130 1 0 132 1 0
rfc2459.NameConstraints rfc3125.NameConstraints 48 6 160 4 48 2 130 0
rfc2459.NameConstraints rfc3280.NameConstraints 48 60 160 58 48 56 163 54 48 52 97 5 18 3 65 65 65 98 2 18 0 160 3 18 1 65 161 3 19 1 65 162 3 18 1 65 163 3 19 1 65 164 3 18 1 65 165 7 49 5 160 3 19 1 65 166 5 48 3 19 1 65
rfc2459.NameConstraints rfc5280.NameConstraints 48 60 160 58 48 56 163 54 48 52 97 5 18 3 65 65 65 98 2 18 0 160 3 18 1 65 161 3 19 1 65 162 3 18 1 65 163 3 19 1 65 164 3 18 1 65 165 7 49 5 160 3 19 1 65 166 5 48 3 19 1 65
rfc2459.NameConstraints rfc5914.NameConstraints 48 60 160 58 48 56 163 54 48 52 97 5 18 3 65 65 65 98 2 18 0 160 3 18 1 65 161 3 19 1 65 162 3 18 1 65 163 3 19 1 65 164 3 18 1 65 165 7 49 5 160 3 19 1 65 166 5 48 3 19 1 65
rfc2459.NetworkAddress rfc1155.NetworkAddress 18 1 48
rfc2459.ORAddress rfc3280.ORAddress 48 7 48 5 161 3 19 1 64
rfc2459.ORAddress rfc5280.ORAddress 48 7 48 5 161 3 19 1 64
rfc2459.PersonalName rfc3280.PersonalName 49 5 160 3 19 1 65
rfc2459.PersonalName rfc5280.PersonalName 49 5 160 3 19 1 65
rfc2459.PresentationAddress rfc3280.PresentationAddress 48 0
rfc2459.PresentationAddress rfc5280.PresentationAddress 48 0
rfc2459.SubjectAltName rfc3280.SubjectAltName 48 7 165 5 161 3 22 1 65
rfc2459.SubjectAltName rfc5280.SubjectAltName 48 7 165 5 161 3 22 1 65
rfc2459.TeletexDomainDefinedAttribute rfc3280.TeletexDomainDefinedAttribute 48 5 20 1 64 20 0
rfc2459.TeletexDomainDefinedAttribute rfc5280.TeletexDomainDefinedAttribute 48 5 20 1 64 20 0
rfc2459.TeletexDomainDefinedAttributes rfc3280.TeletexDomainDefinedAttributes 48 7 48 5 20 1 64 20 0
rfc2459.TeletexDomainDefinedAttributes rfc5280.TeletexDomainDefinedAttributes 48 7 48 5 20 1 64 20 0
rfc2459.TeletexPersonalName rfc3280.TeletexPersonalName 49 5 160 3 20 1 65
rfc2459.TeletexPersonalName rfc5280.TeletexPersonalName 49 5 160 3 20 1 65
rfc2511.CertId rfc4211.CertId 48 5 4 0 2 1 1
rfc2511.CertReq rfc4210.PollRepContent.CertReq 48 5 2 1 255 48 0
rfc2511.CertReq rfc4210.PollReqContent.CertReq 48 5 2 1 255 48 0
rfc2511.CertReqMessages rfc4211.CertReqMessages 48 33 48 31 48 5 2 1 255 48 0 161 22 160 12 128 0 48 8 48 3 6 1 42 3 1 0 48 3 6 1 42 3 1 0
rfc2511.CertReqMsg rfc4211.CertReqMsg 48 31 48 5 2 1 255 48 0 161 22 160 12 128 0 48 8 48 3 6 1 42 3 1 0 48 3 6 1 42 3 1 0
rfc2511.Controls rfc2251.Controls 48 7 48 5 6 1 42 48 0
rfc2511.EncryptedKey rfc2315.EncryptedKey 48 3 3 1 0
rfc2511.EncryptedKey rfc3852.EncryptedKey 48 3 3 1 0
rfc2511.EncryptedKey rfc5652.EncryptedKey 48 3 3 1 0
rfc2511.GeneralName rfc2459.GeneralName 4 0
rfc2511.GeneralName rfc3125.GeneralName 4 0
rfc2511.GeneralName rfc3161.GeneralName 4 0
rfc2511.GeneralName rfc3280.GeneralName 4 0
rfc2511.GeneralName rfc3739.GeneralName 4 0
rfc2511.GeneralName rfc5126.GeneralName 4 0
rfc2511.GeneralName rfc5275.GeneralName 4 0
rfc2511.GeneralName rfc5280.GeneralName 4 0
rfc2511.GeneralName rfc5755.GeneralName 4 0
rfc2511.GeneralName rfc6960.GeneralName 4 0
rfc2511.GeneralName rfc7906.GeneralName 4 0
rfc2511.OldCertId rfc4211.OldCertId 48 5 4 0 2 1 1
rfc2511.PBMParameter rfc4210.PBMParameter 48 129 145 4 129 129 0 0 0 0 0 0 0 0 0 0 0 0 0 0 0 0 0 0 0 0 0 0 0 0 0 0 0 0 0 0 0 0 0 0 0 0 0 0 0 0 0 0 0 0 0 0 0 0 0 0 0 0 0 0 0 0 0 0 0 0 0 0 0 0 0 0 0 0 0 0 0 0 0 0 0 0 0 0 0 0 0 0 0 0 0 0 0 0 0 0 0 0 0 0 0 0 0 0 0 0 0 0 0 0 0 0 0 0 0 0 0 0 0 0 0 0 0 0 0 0 0 0 0 0 0 0 0 0 0 48 3 6 1 42 2 1 255 48 3 6 1 42
rfc2511.PKIPublicationInfo rfc4211.PKIPublicationInfo 48 12 2 1 255 48 7 48 5 2 1 0 4 0
rfc2511.POPOSigningKey rfc4211.POPOSigningKey 48 22 160 12 128 0 48 8 48 3 6 1 42 3 1 0 48 3 6 1 42 3 1 0
rfc2511.POPOSigningKeyInput rfc4211.POPOSigningKeyInput 48 12 128 0 48 8 48 3 6 1 42 3 1 0
rfc2511.ProofOfPossession rfc4211.ProofOfPossession 161 22 160 12 128 0 48 8 48 3 6 1 42 3 1 0 48 3 6 1 42 3 1 0
rfc2511.SinglePubInfo rfc4211.SinglePubInfo 48 5 2 1 255 4 0
rfc2560.CertStatus rfc4210.CertStatus 130 0
rfc2560.GeneralName rfc2459.GeneralName 4 0
rfc2560.GeneralName rfc3125.GeneralName 4 0
rfc2560.GeneralName rfc3161.GeneralName 4 0
rfc2560.GeneralName rfc3280.GeneralName 4 0
rfc2560.GeneralName rfc3739.GeneralName 4 0
rfc2560.GeneralName rfc5126.GeneralName 4 0
rfc2560.GeneralName rfc5275.GeneralName 4 0
rfc2560.GeneralName rfc5280.GeneralName 4 0
rfc2560.GeneralName rfc5755.GeneralName 4 0
rfc2560.GeneralName rfc6960.GeneralName 4 0
rfc2560.GeneralName rfc7906.GeneralName 4 0
rfc2560.OCSPRequest rfc6960.OCSPRequest 48 24 48 22 161 2 4 0 48 16 48 14 48 12 48 3 6 1 42 4 0 4 0 2 1 255
rfc2560.Signature rfc2314.Signature 48 8 48 3 6 1 42 3 1 0
rfc2560.Signature rfc2315.Signature 48 8 48 3 6 1 42 3 1 0
rfc2560.Signature rfc3852.Signature 48 8 48 3 6 1 42 3 1 0
rfc2560.Signature rfc5652.Signature 48 8 48 3 6 1 42 3 1 0
rfc2560.TBSRequest rfc6960.TBSRequest 48 22 161 2 4 0 48 16 48 14 48 12 48 3 6 1 42 4 0 4 0 2 1 255
rfc2634.GeneralNames rfc2459.GeneralNames 48 7 163 5 48 3 128 1 65
rfc2634.PolicyInformation rfc2459.PolicyInformation 48 12 6 1 42 48 7 48 5 6 1 42 48 0
rfc2985.Attribute rfc2251.Attribute 48 5 6 1 42 49 0
rfc2985.AttributeType rfc2251.AttributeType 6 1 43
rfc2985.AttributeValue rfc2251.AttributeValue 5 0
rfc2985.DirectoryString rfc5917.DirectoryString 19 1 64
rfc2985.EmailAddress rfc3280.EmailAddress 22 129 129 65 65 65 65 65 65 65 65 65 65 65 65 65 65 65 65 65 65 65 65 65 65 65 65 65 65 65 65 65 65 65 65 65 65 65 65 65 65 65 65 65 65 65 65 65 65 65 65 65 65 65 65 65 65 65 65 65 65 65 65 65 65 65 65 65 65 65 65 65 65 65 65 65 65 65 65 65 65 65 65 65 65 65 65 65 65 65 65 65 65 65 65 65 65 65 65 65 65 65 65 65 65 65 65 65 65 65 65 65 65 65 65 65 65 65 65 65 65 65 65 65 65 65 65 65 65 65 65 65
rfc2985.FriendlyName rfc6031.FriendlyName 30 2 0 48
rfc2985.SignerInfo rfc2315.SignerInfo 48 17 2 1 255 128 0 48 3 6 1 42 48 3 6 1 42 4 0
rfc2986.Attribute rfc2251.Attribute 48 5 6 1 42 49 0
rfc2986.AttributeType rfc2251.AttributeType 6 1 43
rfc2986.AttributeValue rfc2251.AttributeValue 5 0
rfc2986.Attributes rfc5208.Attributes 49 7 48 5 6 1 42 49 0
rfc3125.Attribute rfc2251.Attribute 48 5 6 1 42 49 0
rfc3125.AttributeType rfc2251.AttributeType 6 1 43
rfc3125.AttributeValue rfc2251.AttributeValue 5 0
rfc3125.DirectoryString rfc2985.DirectoryString 20 130 1 1 64 64 64 64 64 64 64 64 64 64 64 64 64 64 64 64 64 64 64 64 64 64 64 64 64 64 64 64 64 64 64 64 64 64 64 64 64 64 64 64 64 64 64 64 64 64 64 64 64 64 64 64 64 64 64 64 64 64 64 64 64 64 64 64 64 64 64 64 64 64 64 64 64 64 64 64 64 64 64 64 64 64 64 64 64 64 64 64 64 64 64 64 64 64 64 64 64 64 64 64 64 64 64 64 64 64 64 64 64 64 64 64 64 64 64 64 64 64 64 64 64 64 64 64 64 64 64 64 64 64 64 64 64 64 64 64 64 64 64 64 64 64 64 64 64 64 64 64 64 64 64 64 64 64 64 64 64 64 64 64 64 64 64 64 64 64 64 64 64 64 64 64 64 64 64 64 64 64 64 64 64 64 64 64 64 64 64 64 64 64 64 64 64 64 64 64 64 64 64 64 64 64 64 64 64 64 64 64 64 64 64 64 64 64 64 64 64 64 64 64 64 64 64 64 64 64 64 64 64 64 64 64 64 64 64 64 64 64 64 64 64 64 64 64 64 64 64 64 64 64 64 64 64 64 64 64 64
rfc3125.DirectoryString rfc5917.DirectoryString 19 1 64
rfc3125.DirectoryString rfc7894.DirectoryString 20 130 1 1 64 64 64 64 64 64 64 64 64 64 64 64 64 64 64 64 64 64 64 64 64 64 64 64 64 64 64 64 64 64 64 64 64 64 64 64 64 64 64 64 64 64 64 64 64 64 64 64 64 64 64 64 64 64 64 64 64 64 64 64 64 64 64 64 64 64 64 64 64 64 64 64 64 64 64 64 64 64 64 64 64 64 64 64 64 64 64 64 64 64 64 64 64 64 64 64 64 64 64 64 64 64 64 64 64 64 64 64 64 64 64 64 64 64 64 64 64 64 64 64 64 64 64 64 64 64 64 64 64 64 64 64 64 64 64 64 64 64 64 64 64 64 64 64 64 64 64 64 64 64 64 64 64 64 64 64 64 64 64 64 64 64 64 64 64 64 64 64 64 64 64 64 64 64 64 64 64 64 64 64 64 64 64 64 64 64 64 64 64 64 64 64 64 64 64 64 64 64 64 64 64 64 64 64 64 64 64 64 64 64 64 64 64 64 64 64 64 64 64 64 64 64 64 64 64 64 64 64 64 64 64 64 64 64 64 64 64 64 64 64 64 64 64 64 64 64 64 64 64 64 64 64 64 64 64 64 64
rfc3125.GeneralName rfc2459.GeneralName 163 5 48 3 132 1 65
rfc3125.GeneralName rfc2511.GeneralName 129 0
rfc3125.GeneralName rfc2560.GeneralName 129 0
rfc3125.GeneralNames rfc2459.GeneralNames 48 7 163 5 48 3 128 1 65
rfc3125.GeneralSubtree rfc2459.GeneralSubtree 48 7 134 0 161 3 2 1 0
rfc3125.GeneralSubtree rfc3280.GeneralSubtree 48 7 134 0 161 3 2 1 0
rfc3125.GeneralSubtree rfc5280.GeneralSubtree 48 7 134 0 161 3 2 1 0
rfc3125.GeneralSubtrees rfc2459.GeneralSubtrees 48 9 48 7 135 0 161 3 2 1 0
rfc3125.GeneralSubtrees rfc3280.GeneralSubtrees 48 9 48 7 135 0 161 3 2 1 0
rfc3125.GeneralSubtrees rfc5280.GeneralSubtrees 48 9 48 7 135 0 161 3 2 1 0
rfc3125.NameConstraints rfc2459.NameConstraints 48 8 160 6 48 4 48 2 129 0
rfc3125.NameConstraints rfc3280.NameConstraints 48 8 160 6 48 4 48 2 129 0
rfc3125.NameConstraints rfc5280.NameConstraints 48 8 160 6 48 4 48 2 129 0
rfc3125.NameConstraints rfc5914.NameConstraints 48 8 160 6 48 4 48 2 129 0
rfc3125.PolicyConstraints rfc2459.PolicyConstraints 48 5 160 3 2 1 64
rfc3125.PolicyConstraints rfc3280.PolicyConstraints 48 5 160 3 2 1 64
rfc3125.PolicyConstraints rfc5280.PolicyConstraints 48 5 160 3 2 1 64
rfc3125.PolicyInformation rfc2459.PolicyInformation 48 12 6 1 42 48 7 48 5 6 1 42 48 0
rfc3125.SignaturePolicy rfc5126.SignaturePolicy 48 65 48 3 6 1 42 48 58 6 1 42 24 15 49 57 55 48 48 49 48 49 48 48 48 48 48 48 90 48 2 129 0 20 1 65 48 29 48 17 24 15 49 57 55 48 48 49 48 49 48 48 48 48 48 48 90 48 0 48 6 48 4 48 2 5 0
rfc3125.SkipCerts rfc2459.SkipCerts 2 1 0
rfc3161.GeneralName rfc2459.GeneralName 163 5 48 3 132 1 65
rfc3161.GeneralName rfc2511.GeneralName 129 0
rfc3161.GeneralName rfc2560.GeneralName 129 0
rfc3274.CompressedData rfc8494.CompressedData 48 13 2 1 5 48 3 6 1 42 48 3 6 1 42
rfc3274.CompressionAlgorithmIdentifier rfc8494.CompressionAlgorithmIdentifier 48 3 6 1 43
rfc3279.DomainParameters rfc2459.DomainParameters 48 9 2 1 6 2 1 255 2 1 255
rfc3279.ECParameters rfc5480.ECParameters 48 21 2 1 255 48 5 6 1 42 5 0 48 4 4 0 4 0 4 0 2 1 6
rfc3279.ECParameters rfc5753.ECParameters 48 21 2 1 255 48 5 6 1 42 5 0 48 4 4 0 4 0 4 0 2 1 6
rfc3279.ECParameters rfc6664.ECParameters 48 21 2 1 255 48 5 6 1 42 5 0 48 4 4 0 4 0 4 0 2 1 6
rfc3280.AccessDescription rfc2459.AccessDescription 48 18 6 1 42 163 13 48 0 49 9 48 7 128 1 0 161 2 5 0
rfc3280.Attribute rfc2251.Attribute 48 5 6 1 42 49 0
rfc3280.AttributeType rfc2251.AttributeType 6 1 43
rfc3280.AttributeValue rfc2251.AttributeValue 5 0
rfc3280.AuthorityInfoAccessSyntax rfc2459.AuthorityInfoAccessSyntax 48 20 48 18 6 1 42 163 13 48 0 49 9 48 7 128 1 0 161 2 5 0
rfc3280.AuthorityKeyIdentifier rfc2459.AuthorityKeyIdentifier 48 17 161 15 163 13 48 0 49 9 48 7 128 1 0 161 2 5 0
rfc3280.BaseCRLNumber rfc2459.BaseCRLNumber 2 1 0
rfc3280.BuiltInStandardAttributes rfc2459.BuiltInStandardAttributes 48 3 129 1 48
rfc3280.CRLNumber rfc2459.CRLNumber 2 1 0
rfc3280.CertificateIssuer rfc2459.CertificateIssuer 48 7 163 5 48 3 128 1 65
rfc3280.CertificatePolicies rfc2459.CertificatePolicies 48 14 48 12 6 1 42 48 7 48 5 6 1 43 5 0
rfc3280.DirectoryString rfc2459.DirectoryString 5 0
rfc3280.DirectoryString rfc2985.DirectoryString 5 0
rfc3280.DirectoryString rfc3125.DirectoryString 5 0
rfc3280.DirectoryString rfc3739.DirectoryString 5 0
rfc3280.DirectoryString rfc5126.DirectoryString 5 0
rfc3280.DirectoryString rfc5280.DirectoryString 5 0
rfc3280.DirectoryString rfc5917.DirectoryString 5 0
rfc3280.DirectoryString rfc7894.DirectoryString 5 0
rfc3280.DisplayText rfc2459.DisplayText 22 1 65
rfc3280.DisplayText rfc5126.DisplayText 22 1 65
rfc3280.DistributionPoint rfc2459.DistributionPoint 48 17 162 15 163 13 48 0 49 9 48 7 128 1 0 161 2 5 0
rfc3280.DistributionPointName rfc2459.DistributionPointName 160 15 163 13 48 0 49 9 48 7 128 1 0 161 2 5 0
rfc3280.ExtendedNetworkAddress rfc2459.ExtendedNetworkAddress 48 3 128 1 48
rfc3280.ExtensionAttribute rfc2459.ExtensionAttribute 48 7 128 1 6 161 2 5 0
rfc3280.ExtensionAttributes rfc2459.ExtensionAttributes 49 9 48 7 128 1 7 161 2 5 0
rfc3280.GeneralName rfc2459.GeneralName 163 5 48 3 132 1 65
rfc3280.GeneralName rfc2511.GeneralName 129 0
rfc3280.GeneralName rfc2560.GeneralName 129 0
rfc3280.GeneralNames rfc2459.GeneralNames 48 7 163 5 48 3 128 1 65
rfc3280.GeneralSubtree rfc2459.GeneralSubtree 48 15 163 13 48 0 49 9 48 7 128 1 0 161 2 5 0
rfc3280.GeneralSubtree rfc3125.GeneralSubtree 48 5 129 0 129 1 0
rfc3280.GeneralSubtrees rfc2459.GeneralSubtrees 48 17 48 15 163 13 48 0 49 9 48 7 128 1 0 161 2 5 0
rfc3280.GeneralSubtrees rfc3125.GeneralSubtrees 48 7 48 5 129 0 129 1 0
rfc3280.IssuerAltName rfc2459.IssuerAltName 48 7 163 5 48 3 128 1 65
rfc3280.IssuingDistributionPoint rfc2459.IssuingDistributionPoint 48 0
rfc3280.NameConstraints rfc2459.NameConstraints 48 19 160 17 48 15 163 13 48 0 49 9 48 7 128 1 0 161 2 5 0
rfc3280.NameConstraints rfc3125.NameConstraints 48 6 160 4 48 2 129 0
rfc3280.NetworkAddress rfc1155.NetworkAddress 18 1 48
rfc3280.NoticeReference rfc2459.NoticeReference 48 5 22 1 65 48 0
rfc3280.NoticeReference rfc5126.NoticeReference 48 5 22 1 65 48 0
rfc3280.ORAddress rfc2459.ORAddress 48 5 48 3 129 1 48
rfc3280.PersonalName rfc2459.PersonalName 49 3 128 1 64
rfc3280.PolicyConstraints rfc2459.PolicyConstraints 48 3 128 1 64
rfc3280.PolicyConstraints rfc3125.PolicyConstraints 48 3 128 1 64
rfc3280.PolicyInformation rfc2459.PolicyInformation 48 12 6 1 42 48 7 48 5 6 1 42 48 0
rfc3280.PolicyQualifierId rfc2459.PolicyQualifierId 6 1 43
rfc3280.PolicyQualifierInfo rfc2459.PolicyQualifierInfo 48 5 6 1 42 5 0
rfc3280.SkipCerts rfc2459.SkipCerts 2 1 0
rfc3280.SubjectAltName rfc2459.SubjectAltName 48 7 163 5 48 3 128 1 65
rfc3280.TeletexPersonalName rfc2459.TeletexPersonalName 49 3 128 1 64
rfc3280.TerminalType rfc2459.TerminalType 2 1 1
rfc3280.UnformattedPostalAddress rfc2459.UnformattedPostalAddress 49 12 48 10 19 8 65 65 65 65 65 65 65 65
rfc3280.UserNotice rfc2459.UserNotice 48 3 22 1 65
rfc3281.Clearance rfc5755.Clearance 48 3 128 1 43
rfc3281.IssuerSerial rfc2634.IssuerSerial 48 10 48 2 134 0 2 1 255 3 1 0
rfc3281.IssuerSerial rfc5035.IssuerSerial 48 10 48 2 134 0 2 1 255 3 1 0
rfc3281.IssuerSerial rfc5126.IssuerSerial 48 10 48 2 134 0 2 1 255 3 1 0
rfc3370.DomainParameters rfc2459.DomainParameters 48 9 2 1 6 2 1 255 2 1 255
rfc3447.RSAPrivateKey rfc2437.RSAPrivateKey 48 40 2 1 255 2 1 255 2 1 255 2 1 255 2 1 255 2 1 255 2 1 255 2 1 255 2 1 255 48 11 48 9 2 1 255 2 1 255 2 1 255
rfc3560.RSAES_OAEP_params rfc2437.RSAES_OAEP_params 48 0
rfc3739.AttributeType rfc2251.AttributeType 6 1 43
rfc3739.DirectoryString rfc2985.DirectoryString 20 130 1 1 64 64 64 64 64 64 64 64 64 64 64 64 64 64 64 64 64 64 64 64 64 64 64 64 64 64 64 64 64 64 64 64 64 64 64 64 64 64 64 64 64 64 64 64 64 64 64 64 64 64 64 64 64 64 64 64 64 64 64 64 64 64 64 64 64 64 64 64 64 64 64 64 64 64 64 64 64 64 64 64 64 64 64 64 64 64 64 64 64 64 64 64 64 64 64 64 64 64 64 64 64 64 64 64 64 64 64 64 64 64 64 64 64 64 64 64 64 64 64 64 64 64 64 64 64 64 64 64 64 64 64 64 64 64 64 64 64 64 64 64 64 64 64 64 64 64 64 64 64 64 64 64 64 64 64 64 64 64 64 64 64 64 64 64 64 64 64 64 64 64 64 64 64 64 64 64 64 64 64 64 64 64 64 64 64 64 64 64 64 64 64 64 64 64 64 64 64 64 64 64 64 64 64 64 64 64 64 64 64 64 64 64 64 64 64 64 64 64 64 64 64 64 64 64 64 64 64 64 64 64 64 64 64 64 64 64 64 64 64 64 64 64 64 64 64 64 64 64 64 64 64 64 64 64 64 64 64
rfc3739.DirectoryString rfc5917.DirectoryString 19 1 64
rfc3739.DirectoryString rfc7894.DirectoryString 20 130 1 1 64 64 64 64 64 64 64 64 64 64 64 64 64 64 64 64 64 64 64 64 64 64 64 64 64 64 64 64 64 64 64 64 64 64 64 64 64 64 64 64 64 64 64 64 64 64 64 64 64 64 64 64 64 64 64 64 64 64 64 64 64 64 64 64 64 64 64 64 64 64 64 64 64 64 64 64 64 64 64 64 64 64 64 64 64 64 64 64 64 64 64 64 64 64 64 64 64 64 64 64 64 64 64 64 64 64 64 64 64 64 64 64 64 64 64 64 64 64 64 64 64 64 64 64 64 64 64 64 64 64 64 64 64 64 64 64 64 64 64 64 64 64 64 64 64 64 64 64 64 64 64 64 64 64 64 64 64 64 64 64 64 64 64 64 64 64 64 64 64 64 64 64 64 64 64 64 64 64 64 64 64 64 64 64 64 64 64 64 64 64 64 64 64 64 64 64 64 64 64 64 64 64 64 64 64 64 64 64 64 64 64 64 64 64 64 64 64 64 64 64 64 64 64 64 64 64 64 64 64 64 64 64 64 64 64 64 64 64 64 64 64 64 64 64 64 64 64 64 64 64 64 64 64 64 64 64 64
rfc3739.GeneralName rfc2459.GeneralName 163 5 48 3 132 1 65
rfc3739.GeneralName rfc2511.GeneralName 129 0
rfc3739.GeneralName rfc2560.GeneralName 129 0
rfc3852.Attribute rfc2251.Attribute 48 5 6 1 42 49 0
rfc3852.AttributeValue rfc2251.AttributeValue 5 0
rfc3852.EncryptedData rfc2315.EncryptedData 48 22 2 1 255 48 8 6 1 42 48 3 6 1 42 161 7 48 5 6 1 42 49 0
rfc3852.EncryptedData rfc5208.EncryptedData 48 13 2 1 255 48 8 6 1 42 48 3 6 1 42
rfc3852.EncryptedData rfc5958.EncryptedData 48 13 2 1 255 48 8 6 1 42 48 3 6 1 42
rfc3852.EncryptedKey rfc2511.EncryptedKey 4 0
rfc3852.EncryptedKey rfc4211.EncryptedKey 4 0
rfc3852.EnvelopedData rfc2315.EnvelopedData 48 22 2 1 255 49 7 164 5 6 1 42 48 0 48 8 6 1 42 48 3 6 1 42
rfc3852.RecipientInfo rfc2315.RecipientInfo 164 5 6 1 43 5 0
rfc3852.RecipientInfos rfc2315.RecipientInfos 49 7 164 5 6 1 42 48 0
rfc3852.Signature rfc2560.Signature 3 1 0
rfc3852.Signature rfc6960.Signature 3 1 0
rfc3852.SignedData rfc2315.SignedData 48 36 2 1 255 49 5 48 3 6 1 42 48 3 6 1 42 49 19 48 17 2 1 255 128 0 48 3 6 1 42 48 3 6 1 42 4 0
rfc3852.SignerInfo rfc2315.SignerInfo 48 17 2 1 255 128 0 48 3 6 1 42 48 3 6 1 42 4 0
rfc3852.SignerInfos rfc2315.SignerInfos 49 19 48 17 2 1 255 128 0 48 3 6 1 42 48 3 6 1 42 4 0
rfc4055.RSAES_OAEP_params rfc2437.RSAES_OAEP_params 48 0
rfc4210.CertStatus rfc2560.CertStatus 48 5 4 0 2 1 7
rfc4210.CertStatus rfc6960.CertStatus 48 5 4 0 2 1 7
rfc4210.PollRepContent.CertReq rfc2511.CertReq 48 6 2 1 9 2 1 255
rfc4210.PollRepContent.CertReq rfc4210.PollReqContent.CertReq 48 6 2 1 9 2 1 255
rfc4210.PollRepContent.CertReq rfc4211.CertReq 48 6 2 1 9 2 1 255
rfc4210.PollReqContent.CertReq rfc2511.CertReq 48 3 2 1 1
rfc4210.PollReqContent.CertReq rfc4210.PollRepContent.CertReq 48 3 2 1 1
rfc4210.PollReqContent.CertReq rfc4211.CertReq 48 3 2 1 1
rfc4211.Attributes rfc5208.Attributes 49 7 48 5 6 1 42 49 0
rfc4211.CertId rfc2511.CertId 48 5 130 0 2 1 255
rfc4211.CertReq rfc4210.PollRepContent.CertReq 48 5 2 1 255 48 0
rfc4211.CertReq rfc4210.PollReqContent.CertReq 48 5 2 1 255 48 0
rfc4211.CertReqMessages rfc2511.CertReqMessages 48 21 48 19 48 5 2 1 255 48 0 162 10 163 8 48 3 6 1 42 3 1 0
rfc4211.CertReqMsg rfc2511.CertReqMsg 48 19 48 5 2 1 255 48 0 162 10 163 8 48 3 6 1 42 3 1 0
rfc4211.Controls rfc2251.Controls 48 7 48 5 6 1 42 48 0
rfc4211.EncryptedKey rfc2315.EncryptedKey 48 3 3 1 0
rfc4211.EncryptedKey rfc2511.EncryptedKey 160 22 2 1 255 49 7 164 5 6 1 42 5 0 48 8 6 1 42 48 3 6 1 42
rfc4211.EncryptedKey rfc3852.EncryptedKey 48 3 3 1 0
rfc4211.EncryptedKey rfc5652.EncryptedKey 48 3 3 1 0
rfc4211.OldCertId rfc2511.OldCertId 48 5 130 0 2 1 255
rfc4211.PBMParameter rfc4210.PBMParameter 48 129 145 4 129 129 0 0 0 0 0 0 0 0 0 0 0 0 0 0 0 0 0 0 0 0 0 0 0 0 0 0 0 0 0 0 0 0 0 0 0 0 0 0 0 0 0 0 0 0 0 0 0 0 0 0 0 0 0 0 0 0 0 0 0 0 0 0 0 0 0 0 0 0 0 0 0 0 0 0 0 0 0 0 0 0 0 0 0 0 0 0 0 0 0 0 0 0 0 0 0 0 0 0 0 0 0 0 0 0 0 0 0 0 0 0 0 0 0 0 0 0 0 0 0 0 0 0 0 0 0 0 0 0 0 48 3 6 1 42 2 1 255 48 3 6 1 42
rfc4211.PKIArchiveOptions rfc2511.PKIArchiveOptions 160 24 160 22 2 1 255 49 7 164 5 6 1 42 5 0 48 8 6 1 42 48 3 6 1 42
rfc4211.PKIPublicationInfo rfc2511.PKIPublicationInfo 48 12 2 1 255 48 7 48 5 2 1 255 134 0
rfc4211.POPOPrivKey rfc2511.POPOPrivKey 163 8 48 3 6 1 42 3 1 0
rfc4211.POPOSigningKey rfc2511.POPOSigningKey 48 24 160 14 160 2 129 0 48 8 48 3 6 1 42 3 1 0 48 3 6 1 42 3 1 0
rfc4211.POPOSigningKeyInput rfc2511.POPOSigningKeyInput 48 14 160 2 130 0 48 8 48 3 6 1 42 3 1 0
rfc4211.PrivateKeyInfo rfc5208.PrivateKeyInfo 48 19 2 1 255 48 3 6 1 42 4 0 160 7 48 5 6 1 42 49 0
rfc4211.ProofOfPossession rfc2511.ProofOfPossession 162 10 163 8 48 3 6 1 42 3 1 0
rfc4211.SinglePubInfo rfc2511.SinglePubInfo 48 5 2 1 255 129 0
rfc4334.SSID rfc3770.SSID 4 0
rfc4334.SSIDList rfc3770.SSIDList 48 2 4 0
rfc4476.PolicyInformation rfc2459.PolicyInformation 48 12 6 1 42 48 7 48 5 6 1 42 48 0
rfc4476.PolicyQualifierId rfc2459.PolicyQualifierId 6 1 43
rfc4476.PolicyQualifierInfo rfc2459.PolicyQualifierInfo 48 5 6 1 42 5 0
rfc4476.UserNotice rfc2459.UserNotice 48 3 22 1 65
rfc5035.GeneralNames rfc2459.GeneralNames 48 7 163 5 48 3 128 1 65
rfc5035.PolicyInformation rfc2459.PolicyInformation 48 12 6 1 42 48 7 48 5 6 1 42 48 0
rfc5126.Attribute rfc2251.Attribute 48 5 6 1 42 49 0
rfc5126.DirectoryString rfc2985.DirectoryString 20 130 1 1 64 64 64 64 64 64 64 64 64 64 64 64 64 64 64 64 64 64 64 64 64 64 64 64 64 64 64 64 64 64 64 64 64 64 64 64 64 64 64 64 64 64 64 64 64 64 64 64 64 64 64 64 64 64 64 64 64 64 64 64 64 64 64 64 64 64 64 64 64 64 64 64 64 64 64 64 64 64 64 64 64 64 64 64 64 64 64 64 64 64 64 64 64 64 64 64 64 64 64 64 64 64 64 64 64 64 64 64 64 64 64 64 64 64 64 64 64 64 64 64 64 64 64 64 64 64 64 64 64 64 64 64 64 64 64 64 64 64 64 64 64 64 64 64 64 64 64 64 64 64 64 64 64 64 64 64 64 64 64 64 64 64 64 64 64 64 64 64 64 64 64 64 64 64 64 64 64 64 64 64 64 64 64 64 64 64 64 64 64 64 64 64 64 64 64 64 64 64 64 64 64 64 64 64 64 64 64 64 64 64 64 64 64 64 64 64 64 64 64 64 64 64 64 64 64 64 64 64 64 64 64 64 64 64 64 64 64 64 64 64 64 64 64 64 64 64 64 64 64 64 64 64 64 64 64 64 64
rfc5126.DirectoryString rfc5917.DirectoryString 19 1 64
rfc5126.DirectoryString rfc7894.DirectoryString 20 130 1 1 64 64 64 64 64 64 64 64 64 64 64 64 64 64 64 64 64 64 64 64 64 64 64 64 64 64 64 64 64 64 64 64 64 64 64 64 64 64 64 64 64 64 64 64 64 64 64 64 64 64 64 64 64 64 64 64 64 64 64 64 64 64 64 64 64 64 64 64 64 64 64 64 64 64 64 64 64 64 64 64 64 64 64 64 64 64 64 64 64 64 64 64 64 64 64 64 64 64 64 64 64 64 64 64 64 64 64 64 64 64 64 64 64 64 64 64 64 64 64 64 64 64 64 64 64 64 64 64 64 64 64 64 64 64 64 64 64 64 64 64 64 64 64 64 64 64 64 64 64 64 64 64 64 64 64 64 64 64 64 64 64 64 64 64 64 64 64 64 64 64 64 64 64 64 64 64 64 64 64 64 64 64 64 64 64 64 64 64 64 64 64 64 64 64 64 64 64 64 64 64 64 64 64 64 64 64 64 64 64 64 64 64 64 64 64 64 64 64 64 64 64 64 64 64 64 64 64 64 64 64 64 64 64 64 64 64 64 64 64 64 64 64 64 64 64 64 64 64 64 64 64 64 64 64 64 64 64
rfc5126.GeneralName rfc2459.GeneralName 163 5 48 3 132 1 65
rfc5126.GeneralName rfc2511.GeneralName 129 0
rfc5126.GeneralName rfc2560.GeneralName 129 0
rfc5126.GeneralNames rfc2459.GeneralNames 48 7 163 5 48 3 128 1 65
rfc5126.PolicyInformation rfc2459.PolicyInformation 48 12 6 1 42 48 7 48 5 6 1 42 48 0
rfc5126.SignaturePolicy rfc3125.SignaturePolicy 5 0
rfc5126.SignedData rfc2315.SignedData 48 36 2 1 255 49 5 48 3 6 1 42 48 3 6 1 42 49 19 48 17 2 1 255 128 0 48 3 6 1 42 48 3 6 1 42 4 0
rfc5126.SignerInfo rfc2315.SignerInfo 48 17 2 1 255 128 0 48 3 6 1 42 48 3 6 1 42 4 0
rfc5208.Attributes rfc2314.Attributes 49 6 48 4 4 0 49 0
rfc5208.Attributes rfc2315.Attributes 49 6 48 4 4 0 49 0
rfc5208.Attributes rfc2986.Attributes 49 6 48 4 4 0 49 0
rfc5208.Attributes rfc4211.Attributes 49 6 48 4 4 0 49 0
rfc5208.Attributes rfc5958.Attributes 49 6 48 4 4 0 49 0
rfc5208.EncryptedData rfc2315.EncryptedData 4 0
rfc5208.EncryptedData rfc3852.EncryptedData 4 0
rfc5208.EncryptedData rfc5652.EncryptedData 4 0
rfc5208.PrivateKeyInfo rfc4211.PrivateKeyInfo 48 18 2 1 255 48 3 6 1 42 4 0 160 6 48 4 4 0 49 0
rfc5208.PrivateKeyInfo rfc5958.PrivateKeyInfo 48 18 2 1 255 48 3 6 1 42 4 0 160 6 48 4 4 0 49 0
rfc5208.PrivateKeyInfo rfc7292.PrivateKeyInfo 48 18 2 1 255 48 3 6 1 42 4 0 160 6 48 4 4 0 49 0
rfc5275.GeneralName rfc2459.GeneralName 163 5 48 3 132 1 65
rfc5275.GeneralName rfc2511.GeneralName 129 0
rfc5275.GeneralName rfc2560.GeneralName 129 0
rfc5275.RecipientInfos rfc2315.RecipientInfos 49 7 164 5 6 1 42 48 0
rfc5280.AccessDescription rfc2459.AccessDescription 48 18 6 1 42 163 13 48 0 49 9 48 7 128 1 0 161 2 5 0
rfc5280.Attribute rfc2251.Attribute 48 5 6 1 42 49 0
rfc5280.AttributeType rfc2251.AttributeType 6 1 43
rfc5280.AttributeValue rfc2251.AttributeValue 5 0
rfc5280.AuthorityInfoAccessSyntax rfc2459.AuthorityInfoAccessSyntax 48 20 48 18 6 1 42 163 13 48 0 49 9 48 7 128 1 0 161 2 5 0
rfc5280.AuthorityKeyIdentifier rfc2459.AuthorityKeyIdentifier 48 17 161 15 163 13 48 0 49 9 48 7 128 1 0 161 2 5 0
rfc5280.BaseCRLNumber rfc2459.BaseCRLNumber 2 1 0
rfc5280.BuiltInStandardAttributes rfc2459.BuiltInStandardAttributes 48 3 129 1 48
rfc5280.CRLNumber rfc2459.CRLNumber 2 1 0
rfc5280.CertificateIssuer rfc2459.CertificateIssuer 48 7 163 5 48 3 128 1 65
rfc5280.CertificatePolicies rfc2459.CertificatePolicies 48 14 48 12 6 1 42 48 7 48 5 6 1 43 5 0
rfc5280.DirectoryString rfc2985.DirectoryString 20 130 1 1 64 64 64 64 64 64 64 64 64 64 64 64 64 64 64 64 64 64 64 64 64 64 64 64 64 64 64 64 64 64 64 64 64 64 64 64 64 64 64 64 64 64 64 64 64 64 64 64 64 64 64 64 64 64 64 64 64 64 64 64 64 64 64 64 64 64 64 64 64 64 64 64 64 64 64 64 64 64 64 64 64 64 64 64 64 64 64 64 64 64 64 64 64 64 64 64 64 64 64 64 64 64 64 64 64 64 64 64 64 64 64 64 64 64 64 64 64 64 64 64 64 64 64 64 64 64 64 64 64 64 64 64 64 64 64 64 64 64 64 64 64 64 64 64 64 64 64 64 64 64 64 64 64 64 64 64 64 64 64 64 64 64 64 64 64 64 64 64 64 64 64 64 64 64 64 64 64 64 64 64 64 64 64 64 64 64 64 64 64 64 64 64 64 64 64 64 64 64 64 64 64 64 64 64 64 64 64 64 64 64 64 64 64 64 64 64 64 64 64 64 64 64 64 64 64 64 64 64 64 64 64 64 64 64 64 64 64 64 64 64 64 64 64 64 64 64 64 64 64 64 64 64 64 64 64 64 64
rfc5280.DirectoryString rfc5917.DirectoryString 19 1 64
rfc5280.DirectoryString rfc7894.DirectoryString 20 130 1 1 64 64 64 64 64 64 64 64 64 64 64 64 64 64 64 64 64 64 64 64 64 64 64 64 64 64 64 64 64 64 64 64 64 64 64 64 64 64 64 64 64 64 64 64 64 64 64 64 64 64 64 64 64 64 64 64 64 64 64 64 64 64 64 64 64 64 64 64 64 64 64 64 64 64 64 64 64 64 64 64 64 64 64 64 64 64 64 64 64 64 64 64 64 64 64 64 64 64 64 64 64 64 64 64 64 64 64 64 64 64 64 64 64 64 64 64 64 64 64 64 64 64 64 64 64 64 64 64 64 64 64 64 64 64 64 64 64 64 64 64 64 64 64 64 64 64 64 64 64 64 64 64 64 64 64 64 64 64 64 64 64 64 64 64 64 64 64 64 64 64 64 64 64 64 64 64 64 64 64 64 64 64 64 64 64 64 64 64 64 64 64 64 64 64 64 64 64 64 64 64 64 64 64 64 64 64 64 64 64 64 64 64 64 64 64 64 64 64 64 64 64 64 64 64 64 64 64 64 64 64 64 64 64 64 64 64 64 64 64 64 64 64 64 64 64 64 64 64 64 64 64 64 64 64 64 64 64
rfc5280.DisplayText rfc2459.DisplayText 22 1 65
rfc5280.DisplayText rfc5126.DisplayText 22 1 65
rfc5280.DistributionPoint rfc2459.DistributionPoint 48 17 162 15 163 13 48 0 49 9 48 7 128 1 0 161 2 5 0
rfc5280.DistributionPointName rfc2459.DistributionPointName 160 15 163 13 48 0 49 9 48 7 128 1 0 161 2 5 0
rfc5280.EmailAddress rfc3280.EmailAddress 22 129 129 65 65 65 65 65 65 65 65 65 65 65 65 65 65 65 65 65 65 65 65 65 65 65 65 65 65 65 65 65 65 65 65 65 65 65 65 65 65 65 65 65 65 65 65 65 65 65 65 65 65 65 65 65 65 65 65 65 65 65 65 65 65 65 65 65 65 65 65 65 65 65 65 65 65 65 65 65 65 65 65 65 65 65 65 65 65 65 65 65 65 65 65 65 65 65 65 65 65 65 65 65 65 65 65 65 65 65 65 65 65 65 65 65 65 65 65 65 65 65 65 65 65 65 65 65 65 65 65 65
rfc5280.ExtendedNetworkAddress rfc2459.ExtendedNetworkAddress 48 3 128 1 48
rfc5280.ExtensionAttribute rfc2459.ExtensionAttribute 48 7 128 1 6 161 2 5 0
rfc5280.ExtensionAttributes rfc2459.ExtensionAttributes 49 9 48 7 128 1 7 161 2 5 0
rfc5280.GeneralName rfc2459.GeneralName 163 5 48 3 132 1 65
rfc5280.GeneralName rfc2511.GeneralName 129 0
rfc5280.GeneralName rfc2560.GeneralName 129 0
rfc5280.GeneralNames rfc2459.GeneralNames 48 7 163 5 48 3 128 1 65
rfc5280.GeneralSubtree rfc2459.GeneralSubtree 48 15 163 13 48 0 49 9 48 7 128 1 0 161 2 5 0
rfc5280.GeneralSubtree rfc3125.GeneralSubtree 48 5 129 0 129 1 0
rfc5280.GeneralSubtrees rfc2459.GeneralSubtrees 48 17 48 15 163 13 48 0 49 9 48 7 128 1 0 161 2 5 0
rfc5280.GeneralSubtrees rfc3125.GeneralSubtrees 48 7 48 5 129 0 129 1 0
rfc5280.IssuerAltName rfc2459.IssuerAltName 48 7 163 5 48 3 128 1 65
rfc5280.IssuingDistributionPoint rfc2459.IssuingDistributionPoint 48 0
rfc5280.NameConstraints rfc2459.NameConstraints 48 19 160 17 48 15 163 13 48 0 49 9 48 7 128 1 0 161 2 5 0
rfc5280.NameConstraints rfc3125.NameConstraints 48 6 160 4 48 2 129 0
rfc5280.NetworkAddress rfc1155.NetworkAddress 18 1 48
rfc5280.NoticeReference rfc2459.NoticeReference 48 5 22 1 65 48 0
rfc5280.NoticeReference rfc5126.NoticeReference 48 5 22 1 65 48 0
rfc5280.ORAddress rfc2459.ORAddress 48 5 48 3 129 1 48
rfc5280.PersonalName rfc2459.PersonalName 49 3 128 1 64
rfc5280.PolicyConstraints rfc2459.PolicyConstraints 48 3 128 1 64
rfc5280.PolicyConstraints rfc3125.PolicyConstraints 48 3 128 1 64
rfc5280.PolicyInformation rfc2459.PolicyInformation 48 12 6 1 42 48 7 48 5 6 1 42 48 0
rfc5280.PolicyQualifierId rfc2459.PolicyQualifierId 6 1 43
rfc5280.PolicyQualifierInfo rfc2459.PolicyQualifierInfo 48 5 6 1 42 5 0
rfc5280.SkipCerts rfc2459.SkipCerts 2 1 0
rfc5280.SubjectAltName rfc2459.SubjectAltName 48 7 163 5 48 3 128 1 65
rfc5280.TeletexPersonalName rfc2459.TeletexPersonalName 49 3 128 1 64
rfc5280.TerminalType rfc2459.TerminalType 2 1 1
rfc5280.UnformattedPostalAddress rfc2459.UnformattedPostalAddress 49 12 48 10 19 8 65 65 65 65 65 65 65 65
rfc5280.UserNotice rfc2459.UserNotice 48 3 22 1 65
rfc5480.DomainParameters rfc2459.DomainParameters 48 9 2 1 6 2 1 255 2 1 255
rfc5480.ECParameters rfc3279.ECParameters 6 1 43
rfc5652.Attribute rfc2251.Attribute 48 5 6 1 42 49 0
rfc5652.AttributeValue rfc2251.AttributeValue 5 0
rfc5652.EncryptedData rfc2315.EncryptedData 48 22 2 1 255 48 8 6 1 42 48 3 6 1 42 161 7 48 5 6 1 42 49 0
rfc5652.EncryptedData rfc5208.EncryptedData 48 13 2 1 255 48 8 6 1 42 48 3 6 1 42
rfc5652.EncryptedData rfc5958.EncryptedData 48 13 2 1 255 48 8 6 1 42 48 3 6 1 42
rfc5652.EncryptedKey rfc2511.EncryptedKey 4 0
rfc5652.EncryptedKey rfc4211.EncryptedKey 4 0
rfc5652.EnvelopedData rfc2315.EnvelopedData 48 22 2 1 255 49 7 164 5 6 1 42 48 0 48 8 6 1 42 48 3 6 1 42
rfc5652.RecipientInfo rfc2315.RecipientInfo 164 5 6 1 43 5 0
rfc5652.RecipientInfos rfc2315.RecipientInfos 49 7 164 5 6 1 42 48 0
rfc5652.Signature rfc2560.Signature 3 1 0
rfc5652.Signature rfc6960.Signature 3 1 0
rfc5652.SignedData rfc2315.SignedData 48 36 2 1 255 49 5 48 3 6 1 42 48 3 6 1 42 49 19 48 17 2 1 255 128 0 48 3 6 1 42 48 3 6 1 42 4 0
rfc5652.SignerInfo rfc2315.SignerInfo 48 17 2 1 255 128 0 48 3 6 1 42 48 3 6 1 42 4 0
rfc5652.SignerInfos rfc2315.SignerInfos 49 19 48 17 2 1 255 128 0 48 3 6 1 42 48 3 6 1 42 4 0
rfc5697.GeneralNames rfc2459.GeneralNames 48 7 163 5 48 3 128 1 65
rfc5753.ECParameters rfc3279.ECParameters 6 1 43
rfc5755.Attribute rfc2251.Attribute 48 5 6 1 42 49 0
rfc5755.AuthorityInfoAccessSyntax rfc2459.AuthorityInfoAccessSyntax 48 20 48 18 6 1 42 163 13 48 0 49 9 48 7 128 1 0 161 2 5 0
rfc5755.AuthorityKeyIdentifier rfc2459.AuthorityKeyIdentifier 48 17 161 15 163 13 48 0 49 9 48 7 128 1 0 161 2 5 0
rfc5755.Clearance rfc3281.Clearance 48 3 6 1 43
rfc5755.GeneralName rfc2459.GeneralName 163 5 48 3 132 1 65
rfc5755.GeneralName rfc2511.GeneralName 129 0
rfc5755.GeneralName rfc2560.GeneralName 129 0
rfc5755.GeneralNames rfc2459.GeneralNames 48 7 163 5 48 3 128 1 65
rfc5755.IssuerSerial rfc2634.IssuerSerial 48 10 48 2 134 0 2 1 255 3 1 0
rfc5755.IssuerSerial rfc5035.IssuerSerial 48 10 48 2 134 0 2 1 255 3 1 0
rfc5755.IssuerSerial rfc5126.IssuerSerial 48 10 48 2 134 0 2 1 255 3 1 0
rfc5914.CertificatePolicies rfc2459.CertificatePolicies 48 14 48 12 6 1 42 48 7 48 5 6 1 43 5 0
rfc5914.NameConstraints rfc2459.NameConstraints 48 19 160 17 48 15 163 13 48 0 49 9 48 7 128 1 0 161 2 5 0
rfc5914.NameConstraints rfc3125.NameConstraints 48 6 160 4 48 2 129 0
rfc5934.Attribute rfc2251.Attribute 48 5 6 1 42 49 0
rfc5934.Community rfc1157.Community 6 1 43
rfc5958.Attributes rfc5208.Attributes 49 7 48 5 6 1 42 49 0
rfc5958.EncryptedData rfc2315.EncryptedData 4 0
rfc5958.EncryptedData rfc3852.EncryptedData 4 0
rfc5958.EncryptedData rfc5652.EncryptedData 4 0
rfc5958.PrivateKeyInfo rfc4211.PrivateKeyInfo 48 13 2 1 255 48 3 6 1 42 4 0 129 1 0
rfc5958.PrivateKeyInfo rfc5208.PrivateKeyInfo 48 13 2 1 255 48 3 6 1 42 4 0 129 1 0
rfc6010.AttributeType rfc2251.AttributeType 6 1 43
rfc6010.AttributeValue rfc2251.AttributeValue 5 0
rfc6031.AttributeType rfc2251.AttributeType 6 1 43
rfc6031.AttributeValue rfc2251.AttributeValue 5 0
rfc6031.FriendlyName rfc2985.FriendlyName 48 2 12 0
rfc6031.FriendlyName rfc7292.FriendlyName 48 2 12 0
rfc6031.KeyPkgVersion rfc7191.KeyPkgVersion 2 1 255
rfc6402.AttributeValue rfc2251.AttributeValue 5 0
rfc6486.Manifest rfc7906.Manifest 48 42 2 1 0 24 15 49 57 55 48 48 49 48 49 48 48 48 48 48 48 90 24 15 49 57 55 48 48 49 48 49 48 48 48 48 48 48 90 6 1 42 48 0
rfc6664.ECParameters rfc3279.ECParameters 6 1 43
rfc6955.DomainParameters rfc2459.DomainParameters 48 9 2 1 6 2 1 255 2 1 255
rfc6960.AuthorityInfoAccessSyntax rfc2459.AuthorityInfoAccessSyntax 48 20 48 18 6 1 42 163 13 48 0 49 9 48 7 128 1 0 161 2 5 0
rfc6960.CertStatus rfc4210.CertStatus 130 0
rfc6960.GeneralName rfc2459.GeneralName 163 5 48 3 132 1 65
rfc6960.GeneralName rfc2511.GeneralName 129 0
rfc6960.GeneralName rfc2560.GeneralName 129 0
rfc6960.OCSPRequest rfc2560.OCSPRequest 48 24 48 22 161 2 135 0 48 16 48 14 48 12 48 3 6 1 42 4 0 4 0 2 1 255
rfc6960.Signature rfc2314.Signature 48 8 48 3 6 1 42 3 1 0
rfc6960.Signature rfc2315.Signature 48 8 48 3 6 1 42 3 1 0
rfc6960.Signature rfc3852.Signature 48 8 48 3 6 1 42 3 1 0
rfc6960.Signature rfc5652.Signature 48 8 48 3 6 1 42 3 1 0
rfc6960.TBSRequest rfc2560.TBSRequest 48 22 161 2 130 0 48 16 48 14 48 12 48 3 6 1 42 4 0 4 0 2 1 255
rfc7030.Attribute rfc2251.Attribute 48 5 6 1 42 49 0
rfc7191.AttributeValue rfc2251.AttributeValue 5 0
rfc7292.AttributeType rfc2251.AttributeType 6 1 43
rfc7292.AttributeValue rfc2251.AttributeValue 5 0
rfc7292.FriendlyName rfc6031.FriendlyName 30 2 0 48
rfc7292.PrivateKeyInfo rfc4211.PrivateKeyInfo 48 13 2 1 255 48 3 6 1 42 4 0 129 1 0
rfc7292.PrivateKeyInfo rfc5208.PrivateKeyInfo 48 13 2 1 255 48 3 6 1 42 4 0 129 1 0
rfc7894.Attribute rfc2251.Attribute 48 7 6 1 42 49 2 5 0
rfc7894.DirectoryString rfc5917.DirectoryString 19 1 64
rfc7906.Attribute rfc2251.Attribute 48 5 6 1 42 49 0
rfc7906.GeneralName rfc2459.GeneralName 163 5 48 3 132 1 65
rfc7906.GeneralName rfc2511.GeneralName 129 0
rfc7906.GeneralName rfc2560.GeneralName 129 0
rfc7906.GeneralNames rfc2459.GeneralNames 48 7 163 5 48 3 128 1 65
rfc7906.Manifest rfc6486.Manifest 48 2 19 0
rfc8017.RSAES_OAEP_params rfc2437.RSAES_OAEP_params 48 0
rfc8017.RSAPrivateKey rfc2437.RSAPrivateKey 48 40 2 1 255 2 1 255 2 1 255 2 1 255 2 1 255 2 1 255 2 1 255 2 1 255 2 1 255 48 11 48 9 2 1 255 2 1 255 2 1 255
rfc8494.CompressedData rfc3274.CompressedData 48 16 160 3 2 1 255 48 9 160 3 2 1 1 160 2 4 0
rfc8494.CompressionAlgorithmIdentifier rfc3274.CompressionAlgorithmIdentifier 160 3 2 1 1
