rfc2459.TeletexDomainDefinedAttribute rfc3280.TeletexDomainDefinedAttribute 48 5 20 1 65 20 0
rfc2459.TeletexDomainDefinedAttributes rfc3280.TeletexDomainDefinedAttributes 48 7 48 5 20 1 65 20 0
rfc2459.PresentationAddress rfc3280.PresentationAddress 48 0
rfc2459.ExtendedNetworkAddress rfc3280.ExtendedNetworkAddress 48 5 160 3 18 1 65
rfc2459.TeletexPersonalName rfc3280.TeletexPersonalName 49 5 160 3 20 1 65
rfc2459.PersonalName rfc3280.PersonalName 49 5 160 3 19 1 65
rfc2459.BuiltInStandardAttributes rfc3280.BuiltInStandardAttributes 48 5 160 3 18 1 65
rfc2459.ORAddress rfc3280.ORAddress 48 7 48 5 160 3 18 1 65
rfc2459.EDIPartyName rfc3280.EDIPartyName 48 10 160 3 22 1 65 161 3 20 1 65
rfc2459.GeneralName rfc3280.GeneralName 163 7 48 5 160 3 18 1 65
rfc2459.GeneralNames rfc3280.GeneralNames 48 9 163 7 48 5 160 3 18 1 65
rfc2459.AccessDescription rfc3280.AccessDescription 48 13 6 2 42 3 163 7 48 5 160 3 18 1 65
rfc2459.AuthorityInfoAccessSyntax rfc3280.AuthorityInfoAccessSyntax 48 15 48 13 6 2 42 3 163 7 48 5 160 3 18 1 65
rfc2459.AuthorityKeyIdentifier rfc3280.AuthorityKeyIdentifier 48 11 161 9 163 7 48 5 160 3 18 1 65
rfc2459.DistributionPointName rfc3280.DistributionPointName 160 9 163 7 48 5 160 3 18 1 65
rfc2459.DistributionPoint rfc3280.DistributionPoint 48 13 160 11 160 9 163 7 48 5 160 3 18 1 65
rfc2459.IssuingDistributionPoint rfc3280.IssuingDistributionPoint 48 22 160 11 160 9 163 7 48 5 160 3 18 1 65 129 1 255 130 1 255 132 1 255
rfc2459.GeneralSubtree rfc3280.GeneralSubtree 48 9 163 7 48 5 160 3 18 1 65
rfc2459.GeneralSubtrees rfc3280.GeneralSubtrees 48 11 48 9 163 7 48 5 160 3 18 1 65
rfc2459.NameConstraints rfc3280.NameConstraints 48 13 160 11 48 9 163 7 48 5 160 3 18 1 65
rfc2459.CertificateIssuer rfc3280.CertificateIssuer 48 9 163 7 48 5 160 3 18 1 65
rfc2459.SubjectAltName rfc3280.SubjectAltName 48 9 163 7 48 5 160 3 18 1 65
rfc2459.IssuerAltName rfc3280.IssuerAltName 48 9 163 7 48 5 160 3 18 1 65
rfc3280.DirectoryString rfc5280.DirectoryString 5 0
rfc2459.DirectoryString rfc5280.DirectoryString 22 1 65
rfc2459.TeletexDomainDefinedAttribute rfc5280.TeletexDomainDefinedAttribute 48 5 20 1 65 20 0
rfc2459.TeletexDomainDefinedAttributes rfc5280.TeletexDomainDefinedAttributes 48 7 48 5 20 1 65 20 0
rfc2459.PresentationAddress rfc5280.PresentationAddress 48 0
rfc2459.ExtendedNetworkAddress rfc5280.ExtendedNetworkAddress 48 5 160 3 18 1 65
rfc2459.TeletexPersonalName rfc5280.TeletexPersonalName 49 5 160 3 20 1 65
rfc2459.PersonalName rfc5280.PersonalName 49 5 160 3 19 1 65
rfc2459.BuiltInStandardAttributes rfc5280.BuiltInStandardAttributes 48 5 160 3 18 1 65
rfc2459.ORAddress rfc5280.ORAddress 48 7 48 5 160 3 18 1 65
rfc2459.EDIPartyName rfc5280.EDIPartyName 48 10 160 3 22 1 65 161 3 20 1 65
rfc2459.GeneralName rfc5280.GeneralName 163 7 48 5 160 3 18 1 65
rfc2459.GeneralNames rfc5280.GeneralNames 48 9 163 7 48 5 160 3 18 1 65
rfc2459.AccessDescription rfc5280.AccessDescription 48 13 6 2 42 3 163 7 48 5 160 3 18 1 65
rfc2459.AuthorityInfoAccessSyntax rfc5280.AuthorityInfoAccessSyntax 48 15 48 13 6 2 42 3 163 7 48 5 160 3 18 1 65
rfc2459.AuthorityKeyIdentifier rfc5280.AuthorityKeyIdentifier 48 11 161 9 163 7 48 5 160 3 18 1 65
rfc2459.DistributionPointName rfc5280.DistributionPointName 160 9 163 7 48 5 160 3 18 1 65
rfc2459.DistributionPoint rfc5280.DistributionPoint 48 13 160 11 160 9 163 7 48 5 160 3 18 1 65
rfc2459.IssuingDistributionPoint rfc5280.IssuingDistributionPoint 48 22 160 11 160 9 163 7 48 5 160 3 18 1 65 129 1 255 130 1 255 132 1 255
rfc2459.GeneralSubtree rfc5280.GeneralSubtree 48 9 163 7 48 5 160 3 18 1 65
rfc2459.GeneralSubtrees rfc5280.GeneralSubtrees 48 11 48 9 163 7 48 5 160 3 18 1 65
rfc2459.NameConstraints rfc5280.NameConstraints 48 13 160 11 48 9 163 7 48 5 160 3 18 1 65
rfc2459.CertificateIssuer rfc5280.CertificateIssuer 48 9 163 7 48 5 160 3 18 1 65
rfc2459.SubjectAltName rfc5280.SubjectAltName 48 9 163 7 48 5 160 3 18 1 65
rfc2459.IssuerAltName rfc5280.IssuerAltName 48 9 163 7 48 5 160 3 18 1 65
rfc2315.ContentInfo rfc3852.ContentInfo 48 4 6 2 42 3
rfc2315.DigestedData rfc3852.DigestedData 48 21 2 1 0 48 4 6 2 42 3 48 8 6 2 42 3 160 2 5 0 4 0
rfc2315.SignedData rfc3852.SignedData 48 9 2 1 0 48 4 6 2 42 3
rfc2315.ContentInfo rfc5652.ContentInfo 48 4 6 2 42 3
rfc2315.DigestedData rfc5652.DigestedData 48 21 2 1 0 48 4 6 2 42 3 48 8 6 2 42 3 160 2 5 0 4 0
rfc2315.SignedData rfc5652.SignedData 48 9 2 1 0 48 4 6 2 42 3
rfc2560.GeneralName rfc6960.GeneralName 4 0
rfc2560.TBSRequest rfc6960.TBSRequest 48 6 161 2 4 0 48 0
rfc2560.OCSPRequest rfc6960.OCSPRequest 48 8 48 6 161 2 4 0 48 0
rfc2511.CertId rfc4211.CertId 48 5 4 0 2 1 0
rfc2511.OldCertId rfc4211.OldCertId 48 5 4 0 2 1 0
rfc2511.SinglePubInfo rfc4211.SinglePubInfo 48 5 2 1 0 4 0
rfc2511.PKIPublicationInfo rfc4211.PKIPublicationInfo 48 12 2 1 0 48 7 48 5 2 1 0 4 0
rfc2511.POPOSigningKeyInput rfc4211.POPOSigningKeyInput 48 13 128 0 48 9 48 4 6 2 42 3 3 1 0
rfc2511.POPOSigningKey rfc4211.POPOSigningKey 48 24 160 13 128 0 48 9 48 4 6 2 42 3 3 1 0 48 4 6 2 42 3 3 1 0
rfc2511.ProofOfPossession rfc4211.ProofOfPossession 161 24 160 13 128 0 48 9 48 4 6 2 42 3 3 1 0 48 4 6 2 42 3 3 1 0
rfc2511.CertReqMsg rfc4211.CertReqMsg 48 33 48 5 2 1 0 48 0 161 24 160 13 128 0 48 9 48 4 6 2 42 3 3 1 0 48 4 6 2 42 3 3 1 0
rfc2511.CertReqMessages rfc4211.CertReqMessages 48 35 48 33 48 5 2 1 0 48 0 161 24 160 13 128 0 48 9 48 4 6 2 42 3 3 1 0 48 4 6 2 42 3 3 1 0
rfc5208.Attributes rfc5958.Attributes 49 6 48 4 4 0 49 0
rfc5208.PrivateKeyInfo rfc5958.PrivateKeyInfo 48 19 2 1 0 48 4 6 2 42 3 4 0 160 6 48 4 4 0 49 0
rfc2437.RSAES_OAEP_params rfc8017.RSAES_OAEP_params 48 18 160 4 6 2 42 3 161 4 6 2 42 3 162 4 6 2 42 3
rfc3281.Clearance rfc5755.Clearance 48 4 128 2 42 3
rfc1155.SimpleSyntax rfc1902.SimpleSyntax 2 5 0 128 0 0 0
rfc1155.ObjectSyntax rfc1902.ObjectSyntax 2 5 0 128 0 0 0
rfc1157.VarBind rfc1905.VarBind 48 11 6 2 42 3 2 5 0 128 0 0 0
rfc1157.VarBindList rfc1905.VarBindList 48 13 48 11 6 2 42 3 2 5 0 128 0 0 0
rfc1157.GetRequestPDU rfc1905.GetRequestPDU 160 15 2 5 0 128 0 0 0 2 1 0 2 1 0 48 0
rfc1157.GetNextRequestPDU rfc1905.GetNextRequestPDU 161 15 2 5 0 128 0 0 0 2 1 0 2 1 0 48 0
rfc1157.SetRequestPDU rfc1905.SetRequestPDU 163 15 2 5 0 128 0 0 0 2 1 0 2 1 0 48 0
rfc3279.ECParameters rfc5480.ECParameters 48 22 2 1 0 48 6 6 2 42 3 5 0 48 4 4 0 4 0 4 0 2 1 0
