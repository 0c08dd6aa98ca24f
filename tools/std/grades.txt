rfc1157.Message refused 48 27 2 1 0 4 0 164 20 6 1 43 64 4 0 0 0 0 2 1 0 2 1 0 67 1 0 48 0
rfc1157.TrapPDU refused 164 20 6 1 43 64 4 0 0 0 0 2 1 0 2 1 0 67 1 0 48 0
rfc1901.Message same renamed
rfc1902.ApplicationSyntax same renamed
rfc1902.ObjectSyntax same renamed
rfc1905.BulkPDU same renamed
rfc1905.GetBulkRequestPDU same renamed
rfc1905.GetNextRequestPDU same renamed
rfc1905.GetRequestPDU same renamed
rfc1905.InformRequestPDU same renamed
rfc1905.PDU same renamed
rfc1905.PDUs same renamed
rfc1905.ReportPDU same renamed
rfc1905.ResponsePDU same renamed
rfc1905.SNMPv2TrapPDU same renamed
rfc1905.SetRequestPDU same renamed
rfc1905.VarBind same renamed
rfc1905.VarBindList same renamed
rfc2251.AbandonRequest refused 80 1 0 renamed
rfc2251.AddResponse same renamed
rfc2251.AuthenticationChoice widened renamed
rfc2251.BindRequest widened renamed
rfc2251.BindResponse same renamed
rfc2251.CompareResponse same renamed
rfc2251.DelRequest refused 74 0 renamed
rfc2251.DelResponse same renamed
rfc2251.ExtendedResponse same renamed
rfc2251.LDAPMessage refused 48 5 2 1 0 74 0 renamed
rfc2251.LDAPResult same renamed
rfc2251.ModifyDNResponse same renamed
rfc2251.ModifyResponse same renamed
rfc2251.SearchResultDone same renamed
rfc2251.UnbindRequest rewritten .null
rfc2314.Attributes same renamed
rfc2314.CertificationRequest relaxed renamed
rfc2314.CertificationRequestInfo relaxed renamed
rfc2315.CertificateRevocationList relaxed
rfc2315.CertificateRevocationLists relaxed
rfc2315.EnvelopedData relaxed
rfc2315.ExtendedCertificate relaxed
rfc2315.ExtendedCertificateInfo relaxed
rfc2315.ExtendedCertificateOrCertificate relaxed
rfc2315.ExtendedCertificatesAndCertificates relaxed
rfc2315.IssuerAndSerialNumber relaxed
rfc2315.RecipientInfo relaxed
rfc2315.RecipientInfos relaxed
rfc2315.SignedAndEnvelopedData relaxed
rfc2315.SignedData widened
rfc2315.SignerInfo relaxed
rfc2315.SignerInfos relaxed
rfc2315.TBSCertificateRevocationList relaxed
rfc2437.RSAES_OAEP_params refused 48 0
rfc2459.AccessDescription refused 48 20 6 1 43 163 15 48 0 49 11 48 9 160 3 2 1 0 161 2 5 0 renamed
rfc2459.Attribute same renamed
rfc2459.AuthorityInfoAccessSyntax refused 48 22 48 20 6 1 43 163 15 48 0 49 11 48 9 160 3 2 1 0 161 2 5 0 renamed
rfc2459.AuthorityKeyIdentifier refused 48 19 161 17 163 15 48 0 49 11 48 9 160 3 2 1 0 161 2 5 0 renamed
rfc2459.BaseCRLNumber refused 2 1 0
rfc2459.CRLDistPointsSyntax refused 48 21 48 19 162 17 163 15 48 0 49 11 48 9 160 3 2 1 0 161 2 5 0 renamed
rfc2459.CRLNumber refused 2 1 0
rfc2459.Certificate relaxed
rfc2459.CertificateIssuer refused 48 17 163 15 48 0 49 11 48 9 160 3 2 1 0 161 2 5 0 renamed
rfc2459.CertificateList relaxed
rfc2459.DirectoryString widened renamed
rfc2459.DistributionPoint refused 48 19 162 17 163 15 48 0 49 11 48 9 160 3 2 1 0 161 2 5 0 renamed
rfc2459.DistributionPointName refused 160 17 163 15 48 0 49 11 48 9 160 3 2 1 0 161 2 5 0 renamed
rfc2459.DomainParameters refused 48 9 2 1 0 2 1 0 2 1 0
rfc2459.EDIPartyName widened renamed
rfc2459.ExtendedNetworkAddress widened
rfc2459.ExtensionAttribute refused 48 9 160 3 2 1 0 161 2 5 0
rfc2459.ExtensionAttributes refused 49 11 48 9 160 3 2 1 0 161 2 5 0
rfc2459.GeneralName refused 163 15 48 0 49 11 48 9 160 3 2 1 0 161 2 5 0 renamed
rfc2459.GeneralNames refused 48 17 163 15 48 0 49 11 48 9 160 3 2 1 0 161 2 5 0 renamed
rfc2459.GeneralSubtree refused 48 17 163 15 48 0 49 11 48 9 160 3 2 1 0 161 2 5 0 renamed
rfc2459.GeneralSubtrees refused 48 19 48 17 163 15 48 0 49 11 48 9 160 3 2 1 0 161 2 5 0 renamed
rfc2459.IssuerAltName refused 48 17 163 15 48 0 49 11 48 9 160 3 2 1 0 161 2 5 0 renamed
rfc2459.IssuingDistributionPoint refused 48 0 renamed
rfc2459.Name relaxed
rfc2459.NameConstraints refused 48 21 160 19 48 17 163 15 48 0 49 11 48 9 160 3 2 1 0 161 2 5 0 renamed
rfc2459.ORAddress refused 48 15 48 0 49 11 48 9 160 3 2 1 0 161 2 5 0
rfc2459.PolicyConstraints refused 48 3 128 1 0
rfc2459.PresentationAddress widened
rfc2459.RDNSequence relaxed
rfc2459.RelativeDistinguishedName relaxed
rfc2459.SkipCerts refused 2 1 0
rfc2459.SubjectAltName refused 48 17 163 15 48 0 49 11 48 9 160 3 2 1 0 161 2 5 0 renamed
rfc2459.SubjectDirectoryAttributes same renamed
rfc2459.TBSCertList relaxed
rfc2459.TBSCertificate relaxed
rfc2459.TeletexDomainDefinedAttribute relaxed
rfc2459.TeletexDomainDefinedAttributes relaxed
rfc2459.TerminalType refused 2 1 0 renamed
rfc2459.UnformattedPostalAddress refused 49 14 48 12 19 10 48 48 48 48 48 48 48 48 48 48
rfc2511.CertId refused 48 5 129 0 2 1 0 renamed
rfc2511.CertReq relaxed
rfc2511.CertReqMessages refused 48 35 48 33 48 5 2 1 0 48 0 161 24 160 14 160 2 134 0 48 8 48 3 6 1 43 3 1 0 48 3 6 1 43 3 1 0 renamed
rfc2511.CertReqMsg refused 48 33 48 5 2 1 0 48 0 161 24 160 14 160 2 134 0 48 8 48 3 6 1 43 3 1 0 48 3 6 1 43 3 1 0 renamed
rfc2511.CertRequest relaxed
rfc2511.CertTemplate relaxed
rfc2511.EncryptedKey relaxed
rfc2511.GeneralName refused 129 0 renamed
rfc2511.OldCertId refused 48 5 129 0 2 1 0 renamed
rfc2511.PKIArchiveOptions relaxed
rfc2511.PKIPublicationInfo refused 48 12 2 1 0 48 7 48 5 2 1 0 134 0 renamed
rfc2511.POPOSigningKey refused 48 24 160 14 160 2 134 0 48 8 48 3 6 1 43 3 1 0 48 3 6 1 43 3 1 0 renamed
rfc2511.POPOSigningKeyInput refused 48 14 160 2 129 0 48 8 48 3 6 1 43 3 1 0 renamed
rfc2511.ProofOfPossession refused 161 24 160 14 160 2 134 0 48 8 48 3 6 1 43 3 1 0 48 3 6 1 43 3 1 0 renamed
rfc2511.SinglePubInfo refused 48 5 2 1 0 129 0 renamed
rfc2560.BasicOCSPResponse relaxed renamed
rfc2560.CRLReason same renamed
rfc2560.CertStatus same renamed
rfc2560.GeneralName refused 129 0 renamed
rfc2560.OCSPRequest refused 48 8 48 6 161 2 134 0 48 0 renamed
rfc2560.OCSPResponse same renamed
rfc2560.OCSPResponseStatus same renamed
rfc2560.ResponderID relaxed
rfc2560.ResponseData relaxed renamed
rfc2560.RevokedInfo same renamed
rfc2560.Signature relaxed
rfc2560.SingleResponse same renamed
rfc2560.TBSRequest refused 48 6 161 2 129 0 48 0 renamed
rfc2634.ESSSecurityLabel rewritten .record (Vals.cons (.oid [1, 3]) (Vals.cons (.absent) (Vals.cons (.absent) (Vals.cons (.list (Vals.cons (.record (Vals.cons (.oid [1, 3]) (Vals.cons (.octets [5, 0]) (Vals.nil)))) (Vals.nil))) (Vals.nil)))))
rfc2634.EquivalentLabels rewritten .list (Vals.cons (.record (Vals.cons (.oid [1, 3]) (Vals.cons (.absent) (Vals.cons (.absent) (Vals.cons (.list (Vals.cons (.record (Vals.cons (.oid [1, 3]) (Vals.cons (.octets [5, 0]) (Vals.nil)))) (Vals.nil))) (Vals.nil)))))) (Vals.nil))
rfc2634.PolicyInformation relaxed
rfc2634.SecurityCategories rewritten .list (Vals.cons (.record (Vals.cons (.oid [1, 3]) (Vals.cons (.octets [5, 0]) (Vals.nil)))) (Vals.nil))
rfc2634.SecurityCategory rewritten .record (Vals.cons (.oid [1, 3]) (Vals.cons (.octets [5, 0]) (Vals.nil)))
rfc2634.SigningCertificate relaxed
rfc2985.PFX refused 48 8 2 1 0 48 3 6 1 43
rfc2986.CertificationRequest same renamed
rfc2986.CertificationRequestInfo same renamed
rfc3125.PolicyInformation relaxed
rfc3280.CertificatePolicies relaxed
rfc3280.DirectoryString widened renamed
rfc3280.ExtendedNetworkAddress relaxed
rfc3280.PolicyInformation relaxed
rfc3280.PolicyQualifierId relaxed
rfc3280.PolicyQualifierInfo relaxed
rfc3280.PresentationAddress relaxed
rfc3280.TerminalType relaxed
rfc3280.UnformattedPostalAddress relaxed
rfc3281.Clearance rewritten .record (Vals.cons (.oid [1, 3]) (Vals.cons (.bits [false, true]) (Vals.cons (.list (Vals.cons (.record (Vals.cons (.oid [1, 3]) (Vals.cons (.octets [5, 0]) (Vals.nil)))) (Vals.nil))) (Vals.nil))))
rfc3281.SecurityCategory rewritten .record (Vals.cons (.oid [1, 3]) (Vals.cons (.octets [5, 0]) (Vals.nil)))
rfc3370.CBCParameter relaxed
rfc3370.RC2CBCParameter widened
rfc3412.SNMPv3Message refused 48 28 2 1 0 48 13 2 1 0 2 2 1 228 4 1 0 2 1 1 4 0 48 6 4 0 4 0 5 0 renamed
rfc3412.ScopedPDU refused 48 6 4 0 4 0 5 0 renamed
rfc3412.ScopedPduData refused 48 6 4 0 4 0 5 0 renamed
rfc3560.RSAES_OAEP_params changed 48 0
rfc3560.rSAES_OAEP_Default_Identifier WRONG
rfc3560.rSAES_OAEP_Default_Params WRONG
rfc4055.RSAES_OAEP_params changed 48 0
rfc4055.RSASSA_PSS_params changed 48 0
rfc4055.rSAES_OAEP_Default_Identifier WRONG
rfc4055.rSAES_OAEP_Default_Params WRONG
rfc4055.rSASSA_PSS_Default_Identifier WRONG
rfc4055.rSASSA_PSS_Default_Params WRONG
rfc4210.CAKeyUpdAnnContent changed 48 129 198 48 64 48 54 2 1 0 48 3 6 1 43 48 0 48 30 23 13 55 48 48 49 48 49 48 48 48 48 48 48 90 23 13 55 48 48 49 48 49 48 48 48 48 48 48 90 48 0 48 8 48 3 6 1 43 3 1 0 48 3 6 1 43 3 1 0 48 64 48 54 2 1 0 48 3 6 1 43 48 0 48 30 23 13 55 48 48 49 48 49 48 48 48 48 48 48 90 23 13 55 48 48 49 48 49 48 48 48 48 48 48 90 48 0 48 8 48 3 6 1 43 3 1 0 48 3 6 1 43 3 1 0 48 64 48 54 2 1 0 48 3 6 1 43 48 0 48 30 23 13 55 48 48 49 48 49 48 48 48 48 48 48 90 23 13 55 48 48 49 48 49 48 48 48 48 48 48 90 48 0 48 8 48 3 6 1 43 3 1 0 48 3 6 1 43 3 1 0 renamed
rfc4210.CMPCertificate changed 48 64 48 54 2 1 0 48 3 6 1 43 48 0 48 30 23 13 55 48 48 49 48 49 48 48 48 48 48 48 90 23 13 55 48 48 49 48 49 48 48 48 48 48 48 90 48 0 48 8 48 3 6 1 43 3 1 0 48 3 6 1 43 3 1 0 renamed
rfc4210.CRLAnnContent relaxed renamed
rfc4210.CertAnnContent changed 48 64 48 54 2 1 0 48 3 6 1 43 48 0 48 30 23 13 55 48 48 49 48 49 48 48 48 48 48 48 90 23 13 55 48 48 49 48 49 48 48 48 48 48 48 90 48 0 48 8 48 3 6 1 43 3 1 0 48 3 6 1 43 3 1 0 renamed
rfc4210.CertOrEncCert changed 160 66 48 64 48 54 2 1 0 48 3 6 1 43 48 0 48 30 23 13 55 48 48 49 48 49 48 48 48 48 48 48 90 23 13 55 48 48 49 48 49 48 48 48 48 48 48 90 48 0 48 8 48 3 6 1 43 3 1 0 48 3 6 1 43 3 1 0 renamed
rfc4210.CertRepMessage refused 48 98 48 96 48 94 2 1 0 48 3 2 1 0 48 84 160 66 48 64 48 54 2 1 0 48 3 6 1 43 48 0 48 30 23 13 55 48 48 49 48 49 48 48 48 48 48 48 90 23 13 55 48 48 49 48 49 48 48 48 48 48 48 90 48 0 48 8 48 3 6 1 43 3 1 0 48 3 6 1 43 3 1 0 161 14 48 12 2 1 0 48 7 48 5 2 1 0 135 0 renamed
rfc4210.CertResponse refused 48 94 2 1 0 48 3 2 1 0 48 84 160 66 48 64 48 54 2 1 0 48 3 6 1 43 48 0 48 30 23 13 55 48 48 49 48 49 48 48 48 48 48 48 90 23 13 55 48 48 49 48 49 48 48 48 48 48 48 90 48 0 48 8 48 3 6 1 43 3 1 0 48 3 6 1 43 3 1 0 161 14 48 12 2 1 0 48 7 48 5 2 1 0 135 0 renamed
rfc4210.CertifiedKeyPair refused 48 84 160 66 48 64 48 54 2 1 0 48 3 6 1 43 48 0 48 30 23 13 55 48 48 49 48 49 48 48 48 48 48 48 90 23 13 55 48 48 49 48 49 48 48 48 48 48 48 90 48 0 48 8 48 3 6 1 43 3 1 0 48 3 6 1 43 3 1 0 161 14 48 12 2 1 0 48 7 48 5 2 1 0 134 0 renamed
rfc4210.KeyRecRepContent refused 48 95 48 3 2 1 0 162 88 48 86 48 84 160 66 48 64 48 54 2 1 0 48 3 6 1 43 48 0 48 30 23 13 55 48 48 49 48 49 48 48 48 48 48 48 90 23 13 55 48 48 49 48 49 48 48 48 48 48 48 90 48 0 48 8 48 3 6 1 43 3 1 0 48 3 6 1 43 3 1 0 161 14 48 12 2 1 0 48 7 48 5 2 1 0 135 0 renamed
rfc4210.OOBCert changed 48 64 48 54 2 1 0 48 3 6 1 43 48 0 48 30 23 13 55 48 48 49 48 49 48 48 48 48 48 48 90 23 13 55 48 48 49 48 49 48 48 48 48 48 48 90 48 0 48 8 48 3 6 1 43 3 1 0 48 3 6 1 43 3 1 0 renamed
rfc4210.OOBCertHash refused 48 12 161 7 48 5 129 0 2 1 0 3 1 0 renamed
rfc4210.PBMParameter refused 48 129 216 4 129 200 0 0 0 0 0 0 0 0 0 0 0 0 0 0 0 0 0 0 0 0 0 0 0 0 0 0 0 0 0 0 0 0 0 0 0 0 0 0 0 0 0 0 0 0 0 0 0 0 0 0 0 0 0 0 0 0 0 0 0 0 0 0 0 0 0 0 0 0 0 0 0 0 0 0 0 0 0 0 0 0 0 0 0 0 0 0 0 0 0 0 0 0 0 0 0 0 0 0 0 0 0 0 0 0 0 0 0 0 0 0 0 0 0 0 0 0 0 0 0 0 0 0 0 0 0 0 0 0 0 0 0 0 0 0 0 0 0 0 0 0 0 0 0 0 0 0 0 0 0 0 0 0 0 0 0 0 0 0 0 0 0 0 0 0 0 0 0 0 0 0 0 0 0 0 0 0 0 0 0 0 0 0 0 0 0 0 0 0 0 0 0 0 0 0 0 0 0 0 0 0 48 3 6 1 43 2 1 0 48 3 6 1 43
rfc4210.PKIBody refused 172 20 48 18 48 5 48 3 2 1 0 160 9 48 7 48 5 134 0 2 1 0 renamed
rfc4210.PKIHeader refused 48 19 2 1 0 163 5 48 3 128 1 48 160 7 6 1 43 160 2 5 0 renamed
rfc4210.PKIMessage refused 48 34 48 19 2 1 0 163 5 48 3 131 1 48 160 7 6 1 43 160 2 5 0 160 11 48 9 48 7 48 5 2 1 0 48 0 renamed
rfc4210.PKIMessages refused 48 38 48 36 48 21 2 1 0 163 7 48 5 165 3 128 1 48 160 7 6 1 43 160 2 5 0 160 11 48 9 48 7 48 5 2 1 0 48 0 renamed
rfc4210.ProtectedPart refused 48 34 48 19 2 1 0 163 5 48 3 131 1 48 160 7 6 1 43 160 2 5 0 160 11 48 9 48 7 48 5 2 1 0 48 0 renamed
rfc4210.RevAnnContent refused 48 44 2 1 0 48 5 129 0 2 1 0 24 15 49 57 55 48 48 49 48 49 48 48 48 48 48 48 90 24 15 49 57 55 48 48 49 48 49 48 48 48 48 48 48 90 renamed
rfc4210.RevDetails relaxed renamed
rfc4210.RevRepContent refused 48 18 48 5 48 3 2 1 0 160 9 48 7 48 5 134 0 2 1 0 renamed
rfc4210.RevReqContent relaxed renamed
rfc4211.CertReqMessages relaxed
rfc4211.CertReqMsg relaxed
rfc4211.PKIPublicationInfo relaxed
rfc4334.SSID relaxed
rfc4334.SSIDList relaxed
rfc4357.Gost28147_89_EncryptedKey relaxed
rfc4476.AcPoliciesSyntax relaxed
rfc4476.PolicyInformation relaxed
rfc4476.PolicyQualifierId relaxed
rfc4476.PolicyQualifierInfo relaxed
rfc4490.Gost28147_89_EncryptedKey relaxed
rfc4490.GostR3410_KeyTransport relaxed
rfc5035.ESSCertIDv2 changed 48 2 4 0
rfc5035.ESSSecurityLabel rewritten .record (Vals.cons (.oid [1, 3]) (Vals.cons (.absent) (Vals.cons (.absent) (Vals.cons (.list (Vals.cons (.record (Vals.cons (.oid [1, 3]) (Vals.cons (.octets [5, 0]) (Vals.nil)))) (Vals.nil))) (Vals.nil)))))
rfc5035.EquivalentLabels rewritten .list (Vals.cons (.record (Vals.cons (.oid [1, 3]) (Vals.cons (.absent) (Vals.cons (.absent) (Vals.cons (.list (Vals.cons (.record (Vals.cons (.oid [1, 3]) (Vals.cons (.octets [5, 0]) (Vals.nil)))) (Vals.nil))) (Vals.nil)))))) (Vals.nil))
rfc5035.PolicyInformation relaxed
rfc5035.SecurityCategories rewritten .list (Vals.cons (.record (Vals.cons (.oid [1, 3]) (Vals.cons (.octets [5, 0]) (Vals.nil)))) (Vals.nil))
rfc5035.SecurityCategory rewritten .record (Vals.cons (.oid [1, 3]) (Vals.cons (.octets [5, 0]) (Vals.nil)))
rfc5035.SigningCertificate relaxed
rfc5035.SigningCertificateV2 changed 48 6 48 4 48 2 4 0
rfc5126.OtherSigningCertificate relaxed
rfc5126.PolicyInformation relaxed
rfc5126.SigningCertificate relaxed
rfc5208.Attributes refused 49 7 48 5 6 1 43 49 0 renamed
rfc5208.PrivateKeyInfo refused 48 19 2 1 0 48 3 6 1 43 4 0 160 7 48 5 6 1 43 49 0 renamed
rfc5208.Version same renamed
rfc5280.CertificatePolicies relaxed
rfc5280.ExtendedNetworkAddress relaxed
rfc5280.PolicyInformation relaxed
rfc5280.PolicyQualifierId relaxed
rfc5280.PolicyQualifierInfo relaxed
rfc5280.PresentationAddress relaxed
rfc5280.TerminalType relaxed
rfc5280.UnformattedPostalAddress relaxed
rfc5752.MultipleSignatures changed 48 23 48 3 6 1 43 48 3 6 1 43 48 7 48 3 6 1 43 4 0 48 2 4 0
rfc5753.CBCParameter relaxed
rfc5753.IV relaxed
rfc5755.Clearance rewritten .record (Vals.cons (.oid [1, 3]) (Vals.cons (.bits [false, true]) (Vals.cons (.list (Vals.cons (.record (Vals.cons (.oid [1, 3]) (Vals.cons (.octets [5, 0]) (Vals.nil)))) (Vals.nil))) (Vals.nil))))
rfc5755.SecurityCategory rewritten .record (Vals.cons (.oid [1, 3]) (Vals.cons (.octets [5, 0]) (Vals.nil)))
rfc5913.AuthorityClearanceConstraints rewritten .list (Vals.cons (.record (Vals.cons (.oid [1, 3]) (Vals.cons (.bits [false, true]) (Vals.cons (.list (Vals.cons (.record (Vals.cons (.oid [1, 3]) (Vals.cons (.octets [5, 0]) (Vals.nil)))) (Vals.nil))) (Vals.nil))))) (Vals.nil))
rfc5914.CertPathControls relaxed
rfc5914.CertificatePolicies relaxed
rfc5914.TrustAnchorChoice relaxed
rfc5914.TrustAnchorInfo relaxed
rfc5914.TrustAnchorList relaxed
rfc5915.ECPrivateKey relaxed
rfc5934.ApexUpdateConfirm relaxed
rfc5934.CertPathControls relaxed
rfc5934.StatusResponse relaxed
rfc5934.TAMPApexUpdate relaxed
rfc5934.TAMPApexUpdateConfirm relaxed
rfc5934.TAMPStatusResponse relaxed
rfc5934.TAMPUpdate relaxed
rfc5934.TAMPUpdateConfirm relaxed
rfc5934.TrustAnchorChangeInfo relaxed
rfc5934.TrustAnchorChangeInfoChoice relaxed
rfc5934.TrustAnchorChoice relaxed
rfc5934.TrustAnchorChoiceList relaxed
rfc5934.TrustAnchorUpdate relaxed
rfc5934.UpdateConfirm relaxed
rfc5934.VerboseApexUpdateConfirm relaxed
rfc5934.VerboseStatusResponse relaxed
rfc5934.VerboseUpdateConfirm relaxed
rfc5940.OCSPResponse same renamed
rfc6031.ChallengeFormat relaxed
rfc6031.Encoding relaxed
rfc6031.OneSymmetricKey relaxed
rfc6031.PINPolicy relaxed
rfc6031.PSKCAlgorithmParameters relaxed
rfc6031.ResponseFormat relaxed
rfc6031.SKeyAttribute relaxed
rfc6031.SKeyPkgAttribute relaxed
rfc6031.SymmetricKeyPackage relaxed
rfc6031.SymmetricKeys relaxed
rfc6402.CMCPublicationInfo relaxed
rfc6402.CMCStatusInfo relaxed
rfc6402.CMCStatusInfoV2 refused 48 15 2 1 0 48 3 2 1 0 161 5 6 1 43 5 0
rfc6402.ControlsProcessed relaxed
rfc6402.EncryptedPOP relaxed
rfc6402.PKIData relaxed
rfc6402.PKIResponse relaxed
rfc6402.ResponseBody relaxed
rfc6402.TaggedRequest relaxed
rfc6960.OCSPResponse same renamed
rfc6960.OCSPResponseStatus same renamed
rfc7292.AuthenticatedSafe refused 48 5 48 3 6 1 43
rfc7292.ContentInfo refused 48 3 6 1 43
rfc7292.PFX refused 48 8 2 1 0 48 3 6 1 43
rfc7292.PKCS12Attribute same renamed
rfc7292.SafeBag same renamed
rfc7292.SafeContents same renamed
rfc7508.HeaderField relaxed
rfc7508.HeaderFieldName relaxed
rfc7508.HeaderFields relaxed
rfc7508.SecureHeaderFields relaxed
rfc7906.Classification rewritten .record (Vals.cons (.oid [1, 3]) (Vals.cons (.absent) (Vals.cons (.absent) (Vals.cons (.list (Vals.cons (.record (Vals.cons (.oid [1, 3]) (Vals.cons (.octets [5, 0]) (Vals.nil)))) (Vals.nil))) (Vals.nil)))))
rfc7906.ESSSecurityLabel rewritten .record (Vals.cons (.oid [1, 3]) (Vals.cons (.absent) (Vals.cons (.absent) (Vals.cons (.list (Vals.cons (.record (Vals.cons (.oid [1, 3]) (Vals.cons (.octets [5, 0]) (Vals.nil)))) (Vals.nil))) (Vals.nil)))))
rfc7906.SecurityCategories rewritten .list (Vals.cons (.record (Vals.cons (.oid [1, 3]) (Vals.cons (.octets [5, 0]) (Vals.nil)))) (Vals.nil))
rfc8017.RSAES_OAEP_params changed 48 0 renamed
rfc8017.RSASSA_PSS_params changed 48 0 renamed
rfc8017.rSAES_OAEP_Default_Identifier WRONG
rfc8017.rSASSA_PSS_Default_Identifier WRONG
rfc8018.RC5_CBC_Parameters same renamed
rfc8418.dhSinglePass_stdDH_sha256kdf_scheme WRONG
rfc8418.dhSinglePass_stdDH_sha384kdf_scheme WRONG
rfc8418.dhSinglePass_stdDH_sha512kdf_scheme WRONG
