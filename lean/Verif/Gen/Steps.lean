import Verif.Gen.Package

/-!
# Every statement that builds an object

Generated by tools/steps.py from the other files of this directory.
-/

namespace Verif

def Rfc1155.steps : List (String × Py.Obj) :=
  [("rfc1155.ObjectName", Rfc1155.ObjectName),
   ("rfc1155.SimpleSyntax", Rfc1155.SimpleSyntax),
   ("rfc1155.IpAddress", Rfc1155.IpAddress),
   ("rfc1155.NetworkAddress", Rfc1155.NetworkAddress),
   ("rfc1155.Counter", Rfc1155.Counter),
   ("rfc1155.Gauge", Rfc1155.Gauge),
   ("rfc1155.TimeTicks", Rfc1155.TimeTicks),
   ("rfc1155.Opaque", Rfc1155.Opaque),
   ("rfc1155.ApplicationSyntax", Rfc1155.ApplicationSyntax),
   ("rfc1155.ObjectSyntax", Rfc1155.ObjectSyntax)]

def Rfc1155.fills : List (String × Py.Proto) :=
  []

def Rfc1157.steps : List (String × Py.Obj) :=
  [("rfc1157.Version", Rfc1157.Version),
   ("rfc1157.Community", Rfc1157.Community),
   ("rfc1157.RequestID", Rfc1157.RequestID),
   ("rfc1157.ErrorStatus", Rfc1157.ErrorStatus),
   ("rfc1157.ErrorIndex", Rfc1157.ErrorIndex),
   ("rfc1157.VarBind", Rfc1157.VarBind),
   ("rfc1157.VarBindList", Rfc1157.VarBindList),
   ("rfc1157._RequestBase", Rfc1157._RequestBase),
   ("rfc1157.GetRequestPDU", Rfc1157.GetRequestPDU),
   ("rfc1157.GetNextRequestPDU", Rfc1157.GetNextRequestPDU),
   ("rfc1157.GetResponsePDU", Rfc1157.GetResponsePDU),
   ("rfc1157.SetRequestPDU", Rfc1157.SetRequestPDU),
   ("rfc1157.TrapPDU", Rfc1157.TrapPDU),
   ("rfc1157.Pdus", Rfc1157.Pdus),
   ("rfc1157.Message", Rfc1157.Message)]

def Rfc1157.fills : List (String × Py.Proto) :=
  []

def Rfc1901.steps : List (String × Py.Obj) :=
  [("rfc1901.Message", Rfc1901.Message)]

def Rfc1901.fills : List (String × Py.Proto) :=
  []

def Rfc1902.steps : List (String × Py.Obj) :=
  [("rfc1902.Integer", Rfc1902.Integer),
   ("rfc1902.Integer32", Rfc1902.Integer32),
   ("rfc1902.OctetString", Rfc1902.OctetString),
   ("rfc1902.IpAddress", Rfc1902.IpAddress),
   ("rfc1902.Counter32", Rfc1902.Counter32),
   ("rfc1902.Gauge32", Rfc1902.Gauge32),
   ("rfc1902.Unsigned32", Rfc1902.Unsigned32),
   ("rfc1902.TimeTicks", Rfc1902.TimeTicks),
   ("rfc1902.Opaque", Rfc1902.Opaque),
   ("rfc1902.Counter64", Rfc1902.Counter64),
   ("rfc1902.Bits", Rfc1902.Bits),
   ("rfc1902.ObjectName", Rfc1902.ObjectName),
   ("rfc1902.SimpleSyntax", Rfc1902.SimpleSyntax),
   ("rfc1902.ApplicationSyntax", Rfc1902.ApplicationSyntax),
   ("rfc1902.ObjectSyntax", Rfc1902.ObjectSyntax)]

def Rfc1902.fills : List (String × Py.Proto) :=
  []

def Rfc1905.steps : List (String × Py.Obj) :=
  [("rfc1905.max_bindings", Rfc1905.max_bindings),
   ("rfc1905._BindValue", Rfc1905._BindValue),
   ("rfc1905.VarBind", Rfc1905.VarBind),
   ("rfc1905.VarBindList", Rfc1905.VarBindList),
   ("rfc1905.PDU", Rfc1905.PDU),
   ("rfc1905.BulkPDU", Rfc1905.BulkPDU),
   ("rfc1905.GetRequestPDU", Rfc1905.GetRequestPDU),
   ("rfc1905.GetNextRequestPDU", Rfc1905.GetNextRequestPDU),
   ("rfc1905.ResponsePDU", Rfc1905.ResponsePDU),
   ("rfc1905.SetRequestPDU", Rfc1905.SetRequestPDU),
   ("rfc1905.GetBulkRequestPDU", Rfc1905.GetBulkRequestPDU),
   ("rfc1905.InformRequestPDU", Rfc1905.InformRequestPDU),
   ("rfc1905.SNMPv2TrapPDU", Rfc1905.SNMPv2TrapPDU),
   ("rfc1905.ReportPDU", Rfc1905.ReportPDU),
   ("rfc1905.PDUs", Rfc1905.PDUs)]

def Rfc1905.fills : List (String × Py.Proto) :=
  []

def Rfc2251.steps : List (String × Py.Obj) :=
  [("rfc2251.maxInt", Rfc2251.maxInt),
   ("rfc2251.LDAPString", Rfc2251.LDAPString),
   ("rfc2251.LDAPOID", Rfc2251.LDAPOID),
   ("rfc2251.LDAPDN", Rfc2251.LDAPDN),
   ("rfc2251.RelativeLDAPDN", Rfc2251.RelativeLDAPDN),
   ("rfc2251.AttributeType", Rfc2251.AttributeType),
   ("rfc2251.AttributeDescription", Rfc2251.AttributeDescription),
   ("rfc2251.AttributeDescriptionList", Rfc2251.AttributeDescriptionList),
   ("rfc2251.AttributeValue", Rfc2251.AttributeValue),
   ("rfc2251.AssertionValue", Rfc2251.AssertionValue),
   ("rfc2251.AttributeValueAssertion", Rfc2251.AttributeValueAssertion),
   ("rfc2251.Attribute", Rfc2251.Attribute),
   ("rfc2251.MatchingRuleId", Rfc2251.MatchingRuleId),
   ("rfc2251.Control", Rfc2251.Control),
   ("rfc2251.Controls", Rfc2251.Controls),
   ("rfc2251.LDAPURL", Rfc2251.LDAPURL),
   ("rfc2251.Referral", Rfc2251.Referral),
   ("rfc2251.SaslCredentials", Rfc2251.SaslCredentials),
   ("rfc2251.AuthenticationChoice", Rfc2251.AuthenticationChoice),
   ("rfc2251.BindRequest", Rfc2251.BindRequest),
   ("rfc2251.PartialAttributeList", Rfc2251.PartialAttributeList),
   ("rfc2251.SearchResultEntry", Rfc2251.SearchResultEntry),
   ("rfc2251.MatchingRuleAssertion", Rfc2251.MatchingRuleAssertion),
   ("rfc2251.SubstringFilter", Rfc2251.SubstringFilter),
   ("rfc2251.Filter3", Rfc2251.Filter3),
   ("rfc2251.Filter2", Rfc2251.Filter2),
   ("rfc2251.Filter", Rfc2251.Filter),
   ("rfc2251.SearchRequest", Rfc2251.SearchRequest),
   ("rfc2251.UnbindRequest", Rfc2251.UnbindRequest),
   ("rfc2251.BindResponse", Rfc2251.BindResponse),
   ("rfc2251.LDAPResult", Rfc2251.LDAPResult),
   ("rfc2251.SearchResultReference", Rfc2251.SearchResultReference),
   ("rfc2251.SearchResultDone", Rfc2251.SearchResultDone),
   ("rfc2251.AttributeTypeAndValues", Rfc2251.AttributeTypeAndValues),
   ("rfc2251.ModifyRequest", Rfc2251.ModifyRequest),
   ("rfc2251.ModifyResponse", Rfc2251.ModifyResponse),
   ("rfc2251.AttributeList", Rfc2251.AttributeList),
   ("rfc2251.AddRequest", Rfc2251.AddRequest),
   ("rfc2251.AddResponse", Rfc2251.AddResponse),
   ("rfc2251.DelRequest", Rfc2251.DelRequest),
   ("rfc2251.DelResponse", Rfc2251.DelResponse),
   ("rfc2251.ModifyDNRequest", Rfc2251.ModifyDNRequest),
   ("rfc2251.ModifyDNResponse", Rfc2251.ModifyDNResponse),
   ("rfc2251.CompareRequest", Rfc2251.CompareRequest),
   ("rfc2251.CompareResponse", Rfc2251.CompareResponse),
   ("rfc2251.AbandonRequest", Rfc2251.AbandonRequest),
   ("rfc2251.ExtendedRequest", Rfc2251.ExtendedRequest),
   ("rfc2251.ExtendedResponse", Rfc2251.ExtendedResponse),
   ("rfc2251.MessageID", Rfc2251.MessageID),
   ("rfc2251.LDAPMessage", Rfc2251.LDAPMessage)]

def Rfc2251.fills : List (String × Py.Proto) :=
  []

def Rfc2314.steps : List (String × Py.Obj) :=
  [("rfc2314.Attributes", Rfc2314.Attributes),
   ("rfc2314.Version", Rfc2314.Version),
   ("rfc2314.CertificationRequestInfo", Rfc2314.CertificationRequestInfo),
   ("rfc2314.Signature", Rfc2314.Signature),
   ("rfc2314.SignatureAlgorithmIdentifier", Rfc2314.SignatureAlgorithmIdentifier),
   ("rfc2314.CertificationRequest", Rfc2314.CertificationRequest)]

def Rfc2314.fills : List (String × Py.Proto) :=
  []

def Rfc2315.steps : List (String × Py.Obj) :=
  [("rfc2315.Attribute", Rfc2315.Attribute),
   ("rfc2315.AttributeValueAssertion", Rfc2315.AttributeValueAssertion),
   ("rfc2315.pkcs_7", Rfc2315.pkcs_7),
   ("rfc2315.data", Rfc2315.data),
   ("rfc2315.signedData", Rfc2315.signedData),
   ("rfc2315.envelopedData", Rfc2315.envelopedData),
   ("rfc2315.signedAndEnvelopedData", Rfc2315.signedAndEnvelopedData),
   ("rfc2315.digestedData", Rfc2315.digestedData),
   ("rfc2315.encryptedData", Rfc2315.encryptedData),
   ("rfc2315.ContentType", Rfc2315.ContentType),
   ("rfc2315.ContentEncryptionAlgorithmIdentifier", Rfc2315.ContentEncryptionAlgorithmIdentifier),
   ("rfc2315.EncryptedContent", Rfc2315.EncryptedContent),
   ("rfc2315.EncryptedContentInfo", Rfc2315.EncryptedContentInfo),
   ("rfc2315.Version", Rfc2315.Version),
   ("rfc2315.EncryptedData", Rfc2315.EncryptedData),
   ("rfc2315.DigestAlgorithmIdentifier", Rfc2315.DigestAlgorithmIdentifier),
   ("rfc2315.DigestAlgorithmIdentifiers", Rfc2315.DigestAlgorithmIdentifiers),
   ("rfc2315.Digest", Rfc2315.Digest),
   ("rfc2315.ContentInfo", Rfc2315.ContentInfo),
   ("rfc2315.DigestedData", Rfc2315.DigestedData),
   ("rfc2315.IssuerAndSerialNumber", Rfc2315.IssuerAndSerialNumber),
   ("rfc2315.KeyEncryptionAlgorithmIdentifier", Rfc2315.KeyEncryptionAlgorithmIdentifier),
   ("rfc2315.EncryptedKey", Rfc2315.EncryptedKey),
   ("rfc2315.RecipientInfo", Rfc2315.RecipientInfo),
   ("rfc2315.RecipientInfos", Rfc2315.RecipientInfos),
   ("rfc2315.Attributes", Rfc2315.Attributes),
   ("rfc2315.ExtendedCertificateInfo", Rfc2315.ExtendedCertificateInfo),
   ("rfc2315.SignatureAlgorithmIdentifier", Rfc2315.SignatureAlgorithmIdentifier),
   ("rfc2315.Signature", Rfc2315.Signature),
   ("rfc2315.ExtendedCertificate", Rfc2315.ExtendedCertificate),
   ("rfc2315.ExtendedCertificateOrCertificate", Rfc2315.ExtendedCertificateOrCertificate),
   ("rfc2315.ExtendedCertificatesAndCertificates", Rfc2315.ExtendedCertificatesAndCertificates),
   ("rfc2315.SerialNumber", Rfc2315.SerialNumber),
   ("rfc2315.CRLEntry", Rfc2315.CRLEntry),
   ("rfc2315.TBSCertificateRevocationList", Rfc2315.TBSCertificateRevocationList),
   ("rfc2315.CertificateRevocationList", Rfc2315.CertificateRevocationList),
   ("rfc2315.CertificateRevocationLists", Rfc2315.CertificateRevocationLists),
   ("rfc2315.DigestEncryptionAlgorithmIdentifier", Rfc2315.DigestEncryptionAlgorithmIdentifier),
   ("rfc2315.EncryptedDigest", Rfc2315.EncryptedDigest),
   ("rfc2315.SignerInfo", Rfc2315.SignerInfo),
   ("rfc2315.SignerInfos", Rfc2315.SignerInfos),
   ("rfc2315.SignedAndEnvelopedData", Rfc2315.SignedAndEnvelopedData),
   ("rfc2315.EnvelopedData", Rfc2315.EnvelopedData),
   ("rfc2315.DigestInfo", Rfc2315.DigestInfo),
   ("rfc2315.SignedData", Rfc2315.SignedData),
   ("rfc2315.Data", Rfc2315.Data)]

def Rfc2315.fills : List (String × Py.Proto) :=
  []

def Rfc2437.steps : List (String × Py.Obj) :=
  [("rfc2437.pkcs_1", Rfc2437.pkcs_1),
   ("rfc2437.rsaEncryption", Rfc2437.rsaEncryption),
   ("rfc2437.md2WithRSAEncryption", Rfc2437.md2WithRSAEncryption),
   ("rfc2437.md4WithRSAEncryption", Rfc2437.md4WithRSAEncryption),
   ("rfc2437.md5WithRSAEncryption", Rfc2437.md5WithRSAEncryption),
   ("rfc2437.sha1WithRSAEncryption", Rfc2437.sha1WithRSAEncryption),
   ("rfc2437.rsaOAEPEncryptionSET", Rfc2437.rsaOAEPEncryptionSET),
   ("rfc2437.id_RSAES_OAEP", Rfc2437.id_RSAES_OAEP),
   ("rfc2437.id_mgf1", Rfc2437.id_mgf1),
   ("rfc2437.id_pSpecified", Rfc2437.id_pSpecified),
   ("rfc2437.id_sha1", Rfc2437.id_sha1),
   ("rfc2437.Version", Rfc2437.Version),
   ("rfc2437.RSAPrivateKey", Rfc2437.RSAPrivateKey),
   ("rfc2437.RSAPublicKey", Rfc2437.RSAPublicKey),
   ("rfc2437.RSAES_OAEP_params", Rfc2437.RSAES_OAEP_params)]

def Rfc2437.fills : List (String × Py.Proto) :=
  []

def Rfc2459.steps : List (String × Py.Obj) :=
  [("rfc2459.ub_name", Rfc2459.ub_name),
   ("rfc2459.ub_common_name", Rfc2459.ub_common_name),
   ("rfc2459.ub_locality_name", Rfc2459.ub_locality_name),
   ("rfc2459.ub_state_name", Rfc2459.ub_state_name),
   ("rfc2459.ub_organization_name", Rfc2459.ub_organization_name),
   ("rfc2459.ub_organizational_unit_name", Rfc2459.ub_organizational_unit_name),
   ("rfc2459.ub_title", Rfc2459.ub_title),
   ("rfc2459.ub_match", Rfc2459.ub_match),
   ("rfc2459.ub_emailaddress_length", Rfc2459.ub_emailaddress_length),
   ("rfc2459.ub_common_name_length", Rfc2459.ub_common_name_length),
   ("rfc2459.ub_country_name_alpha_length", Rfc2459.ub_country_name_alpha_length),
   ("rfc2459.ub_country_name_numeric_length", Rfc2459.ub_country_name_numeric_length),
   ("rfc2459.ub_domain_defined_attributes", Rfc2459.ub_domain_defined_attributes),
   ("rfc2459.ub_domain_defined_attribute_type_length", Rfc2459.ub_domain_defined_attribute_type_length),
   ("rfc2459.ub_domain_defined_attribute_value_length", Rfc2459.ub_domain_defined_attribute_value_length),
   ("rfc2459.ub_domain_name_length", Rfc2459.ub_domain_name_length),
   ("rfc2459.ub_extension_attributes", Rfc2459.ub_extension_attributes),
   ("rfc2459.ub_e163_4_number_length", Rfc2459.ub_e163_4_number_length),
   ("rfc2459.ub_e163_4_sub_address_length", Rfc2459.ub_e163_4_sub_address_length),
   ("rfc2459.ub_generation_qualifier_length", Rfc2459.ub_generation_qualifier_length),
   ("rfc2459.ub_given_name_length", Rfc2459.ub_given_name_length),
   ("rfc2459.ub_initials_length", Rfc2459.ub_initials_length),
   ("rfc2459.ub_integer_options", Rfc2459.ub_integer_options),
   ("rfc2459.ub_numeric_user_id_length", Rfc2459.ub_numeric_user_id_length),
   ("rfc2459.ub_organization_name_length", Rfc2459.ub_organization_name_length),
   ("rfc2459.ub_organizational_unit_name_length", Rfc2459.ub_organizational_unit_name_length),
   ("rfc2459.ub_organizational_units", Rfc2459.ub_organizational_units),
   ("rfc2459.ub_pds_name_length", Rfc2459.ub_pds_name_length),
   ("rfc2459.ub_pds_parameter_length", Rfc2459.ub_pds_parameter_length),
   ("rfc2459.ub_pds_physical_address_lines", Rfc2459.ub_pds_physical_address_lines),
   ("rfc2459.ub_postal_code_length", Rfc2459.ub_postal_code_length),
   ("rfc2459.ub_surname_length", Rfc2459.ub_surname_length),
   ("rfc2459.ub_terminal_id_length", Rfc2459.ub_terminal_id_length),
   ("rfc2459.ub_unformatted_address_length", Rfc2459.ub_unformatted_address_length),
   ("rfc2459.ub_x121_address_length", Rfc2459.ub_x121_address_length),
   ("rfc2459.UniversalString", Rfc2459.UniversalString),
   ("rfc2459.BMPString", Rfc2459.BMPString),
   ("rfc2459.UTF8String", Rfc2459.UTF8String),
   ("rfc2459.id_pkix", Rfc2459.id_pkix),
   ("rfc2459.id_pe", Rfc2459.id_pe),
   ("rfc2459.id_qt", Rfc2459.id_qt),
   ("rfc2459.id_kp", Rfc2459.id_kp),
   ("rfc2459.id_ad", Rfc2459.id_ad),
   ("rfc2459.id_qt_cps", Rfc2459.id_qt_cps),
   ("rfc2459.id_qt_unotice", Rfc2459.id_qt_unotice),
   ("rfc2459.id_ad_ocsp", Rfc2459.id_ad_ocsp),
   ("rfc2459.id_ad_caIssuers", Rfc2459.id_ad_caIssuers),
   ("rfc2459.id_at", Rfc2459.id_at),
   ("rfc2459.id_at_name", Rfc2459.id_at_name),
   ("rfc2459.id_at_sutname", Rfc2459.id_at_sutname),
   ("rfc2459.id_at_surname", Rfc2459.id_at_surname),
   ("rfc2459.id_at_givenName", Rfc2459.id_at_givenName),
   ("rfc2459.id_at_initials", Rfc2459.id_at_initials),
   ("rfc2459.id_at_generationQualifier", Rfc2459.id_at_generationQualifier),
   ("rfc2459.X520name", Rfc2459.X520name),
   ("rfc2459.id_at_commonName", Rfc2459.id_at_commonName),
   ("rfc2459.X520CommonName", Rfc2459.X520CommonName),
   ("rfc2459.id_at_localityName", Rfc2459.id_at_localityName),
   ("rfc2459.X520LocalityName", Rfc2459.X520LocalityName),
   ("rfc2459.id_at_stateOrProvinceName", Rfc2459.id_at_stateOrProvinceName),
   ("rfc2459.X520StateOrProvinceName", Rfc2459.X520StateOrProvinceName),
   ("rfc2459.id_at_organizationName", Rfc2459.id_at_organizationName),
   ("rfc2459.X520OrganizationName", Rfc2459.X520OrganizationName),
   ("rfc2459.id_at_organizationalUnitName", Rfc2459.id_at_organizationalUnitName),
   ("rfc2459.X520OrganizationalUnitName", Rfc2459.X520OrganizationalUnitName),
   ("rfc2459.id_at_title", Rfc2459.id_at_title),
   ("rfc2459.X520Title", Rfc2459.X520Title),
   ("rfc2459.id_at_dnQualifier", Rfc2459.id_at_dnQualifier),
   ("rfc2459.X520dnQualifier", Rfc2459.X520dnQualifier),
   ("rfc2459.id_at_countryName", Rfc2459.id_at_countryName),
   ("rfc2459.X520countryName", Rfc2459.X520countryName),
   ("rfc2459.pkcs_9", Rfc2459.pkcs_9),
   ("rfc2459.emailAddress", Rfc2459.emailAddress),
   ("rfc2459.Pkcs9email", Rfc2459.Pkcs9email),
   ("rfc2459.DSAPrivateKey", Rfc2459.DSAPrivateKey),
   ("rfc2459.DirectoryString", Rfc2459.DirectoryString),
   ("rfc2459.AlgorithmIdentifier", Rfc2459.AlgorithmIdentifier),
   ("rfc2459.pkcs_1", Rfc2459.pkcs_1),
   ("rfc2459.rsaEncryption", Rfc2459.rsaEncryption),
   ("rfc2459.md2WithRSAEncryption", Rfc2459.md2WithRSAEncryption),
   ("rfc2459.md5WithRSAEncryption", Rfc2459.md5WithRSAEncryption),
   ("rfc2459.sha1WithRSAEncryption", Rfc2459.sha1WithRSAEncryption),
   ("rfc2459.id_dsa_with_sha1", Rfc2459.id_dsa_with_sha1),
   ("rfc2459.Dss_Sig_Value", Rfc2459.Dss_Sig_Value),
   ("rfc2459.dhpublicnumber", Rfc2459.dhpublicnumber),
   ("rfc2459.ValidationParms", Rfc2459.ValidationParms),
   ("rfc2459.DomainParameters", Rfc2459.DomainParameters),
   ("rfc2459.id_dsa", Rfc2459.id_dsa),
   ("rfc2459.Dss_Parms", Rfc2459.Dss_Parms),
   ("rfc2459.teletex_domain_defined_attributes", Rfc2459.teletex_domain_defined_attributes),
   ("rfc2459.TeletexDomainDefinedAttribute", Rfc2459.TeletexDomainDefinedAttribute),
   ("rfc2459.TeletexDomainDefinedAttributes", Rfc2459.TeletexDomainDefinedAttributes),
   ("rfc2459.terminal_type", Rfc2459.terminal_type),
   ("rfc2459.TerminalType", Rfc2459.TerminalType),
   ("rfc2459.PresentationAddress", Rfc2459.PresentationAddress),
   ("rfc2459.extended_network_address", Rfc2459.extended_network_address),
   ("rfc2459.E163_4_address", Rfc2459.E163_4_address),
   ("rfc2459.ExtendedNetworkAddress", Rfc2459.ExtendedNetworkAddress),
   ("rfc2459.PDSParameter", Rfc2459.PDSParameter),
   ("rfc2459.local_postal_attributes", Rfc2459.local_postal_attributes),
   ("rfc2459.LocalPostalAttributes", Rfc2459.LocalPostalAttributes),
   ("rfc2459.UniquePostalName", Rfc2459.UniquePostalName),
   ("rfc2459.unique_postal_name", Rfc2459.unique_postal_name),
   ("rfc2459.poste_restante_address", Rfc2459.poste_restante_address),
   ("rfc2459.PosteRestanteAddress", Rfc2459.PosteRestanteAddress),
   ("rfc2459.post_office_box_address", Rfc2459.post_office_box_address),
   ("rfc2459.PostOfficeBoxAddress", Rfc2459.PostOfficeBoxAddress),
   ("rfc2459.street_address", Rfc2459.street_address),
   ("rfc2459.StreetAddress", Rfc2459.StreetAddress),
   ("rfc2459.UnformattedPostalAddress", Rfc2459.UnformattedPostalAddress),
   ("rfc2459.physical_delivery_office_name", Rfc2459.physical_delivery_office_name),
   ("rfc2459.PhysicalDeliveryOfficeName", Rfc2459.PhysicalDeliveryOfficeName),
   ("rfc2459.physical_delivery_office_number", Rfc2459.physical_delivery_office_number),
   ("rfc2459.PhysicalDeliveryOfficeNumber", Rfc2459.PhysicalDeliveryOfficeNumber),
   ("rfc2459.extension_OR_address_components", Rfc2459.extension_OR_address_components),
   ("rfc2459.ExtensionORAddressComponents", Rfc2459.ExtensionORAddressComponents),
   ("rfc2459.physical_delivery_personal_name", Rfc2459.physical_delivery_personal_name),
   ("rfc2459.PhysicalDeliveryPersonalName", Rfc2459.PhysicalDeliveryPersonalName),
   ("rfc2459.physical_delivery_organization_name", Rfc2459.physical_delivery_organization_name),
   ("rfc2459.PhysicalDeliveryOrganizationName", Rfc2459.PhysicalDeliveryOrganizationName),
   ("rfc2459.extension_physical_delivery_address_components", Rfc2459.extension_physical_delivery_address_components),
   ("rfc2459.ExtensionPhysicalDeliveryAddressComponents", Rfc2459.ExtensionPhysicalDeliveryAddressComponents),
   ("rfc2459.unformatted_postal_address", Rfc2459.unformatted_postal_address),
   ("rfc2459.postal_code", Rfc2459.postal_code),
   ("rfc2459.PostalCode", Rfc2459.PostalCode),
   ("rfc2459.PhysicalDeliveryCountryName", Rfc2459.PhysicalDeliveryCountryName),
   ("rfc2459.PDSName", Rfc2459.PDSName),
   ("rfc2459.physical_delivery_country_name", Rfc2459.physical_delivery_country_name),
   ("rfc2459.TeletexOrganizationalUnitName", Rfc2459.TeletexOrganizationalUnitName),
   ("rfc2459.pds_name", Rfc2459.pds_name),
   ("rfc2459.teletex_organizational_unit_names", Rfc2459.teletex_organizational_unit_names),
   ("rfc2459.TeletexOrganizationalUnitNames", Rfc2459.TeletexOrganizationalUnitNames),
   ("rfc2459.teletex_personal_name", Rfc2459.teletex_personal_name),
   ("rfc2459.TeletexPersonalName", Rfc2459.TeletexPersonalName),
   ("rfc2459.teletex_organization_name", Rfc2459.teletex_organization_name),
   ("rfc2459.TeletexOrganizationName", Rfc2459.TeletexOrganizationName),
   ("rfc2459.teletex_common_name", Rfc2459.teletex_common_name),
   ("rfc2459.TeletexCommonName", Rfc2459.TeletexCommonName),
   ("rfc2459.CommonName", Rfc2459.CommonName),
   ("rfc2459.common_name", Rfc2459.common_name),
   ("rfc2459.ExtensionAttribute", Rfc2459.ExtensionAttribute),
   ("rfc2459.ExtensionAttributes", Rfc2459.ExtensionAttributes),
   ("rfc2459.BuiltInDomainDefinedAttribute", Rfc2459.BuiltInDomainDefinedAttribute),
   ("rfc2459.BuiltInDomainDefinedAttributes", Rfc2459.BuiltInDomainDefinedAttributes),
   ("rfc2459.OrganizationalUnitName", Rfc2459.OrganizationalUnitName),
   ("rfc2459.OrganizationalUnitNames", Rfc2459.OrganizationalUnitNames),
   ("rfc2459.PersonalName", Rfc2459.PersonalName),
   ("rfc2459.NumericUserIdentifier", Rfc2459.NumericUserIdentifier),
   ("rfc2459.OrganizationName", Rfc2459.OrganizationName),
   ("rfc2459.PrivateDomainName", Rfc2459.PrivateDomainName),
   ("rfc2459.TerminalIdentifier", Rfc2459.TerminalIdentifier),
   ("rfc2459.X121Address", Rfc2459.X121Address),
   ("rfc2459.NetworkAddress", Rfc2459.NetworkAddress),
   ("rfc2459.AdministrationDomainName", Rfc2459.AdministrationDomainName),
   ("rfc2459.CountryName", Rfc2459.CountryName),
   ("rfc2459.BuiltInStandardAttributes", Rfc2459.BuiltInStandardAttributes),
   ("rfc2459.ORAddress", Rfc2459.ORAddress),
   ("rfc2459.id_ce_invalidityDate", Rfc2459.id_ce_invalidityDate),
   ("rfc2459.InvalidityDate", Rfc2459.InvalidityDate),
   ("rfc2459.id_holdinstruction_none", Rfc2459.id_holdinstruction_none),
   ("rfc2459.id_holdinstruction_callissuer", Rfc2459.id_holdinstruction_callissuer),
   ("rfc2459.id_holdinstruction_reject", Rfc2459.id_holdinstruction_reject),
   ("rfc2459.holdInstruction", Rfc2459.holdInstruction),
   ("rfc2459.id_ce_holdInstructionCode", Rfc2459.id_ce_holdInstructionCode),
   ("rfc2459.HoldInstructionCode", Rfc2459.HoldInstructionCode),
   ("rfc2459.id_ce_cRLReasons", Rfc2459.id_ce_cRLReasons),
   ("rfc2459.CRLReason", Rfc2459.CRLReason),
   ("rfc2459.id_ce_cRLNumber", Rfc2459.id_ce_cRLNumber),
   ("rfc2459.CRLNumber", Rfc2459.CRLNumber),
   ("rfc2459.BaseCRLNumber", Rfc2459.BaseCRLNumber),
   ("rfc2459.id_kp_serverAuth", Rfc2459.id_kp_serverAuth),
   ("rfc2459.id_kp_clientAuth", Rfc2459.id_kp_clientAuth),
   ("rfc2459.id_kp_codeSigning", Rfc2459.id_kp_codeSigning),
   ("rfc2459.id_kp_emailProtection", Rfc2459.id_kp_emailProtection),
   ("rfc2459.id_kp_ipsecEndSystem", Rfc2459.id_kp_ipsecEndSystem),
   ("rfc2459.id_kp_ipsecTunnel", Rfc2459.id_kp_ipsecTunnel),
   ("rfc2459.id_kp_ipsecUser", Rfc2459.id_kp_ipsecUser),
   ("rfc2459.id_kp_timeStamping", Rfc2459.id_kp_timeStamping),
   ("rfc2459.id_pe_authorityInfoAccess", Rfc2459.id_pe_authorityInfoAccess),
   ("rfc2459.id_ce_extKeyUsage", Rfc2459.id_ce_extKeyUsage),
   ("rfc2459.KeyPurposeId", Rfc2459.KeyPurposeId),
   ("rfc2459.ExtKeyUsageSyntax", Rfc2459.ExtKeyUsageSyntax),
   ("rfc2459.ReasonFlags", Rfc2459.ReasonFlags),
   ("rfc2459.SkipCerts", Rfc2459.SkipCerts),
   ("rfc2459.id_ce_policyConstraints", Rfc2459.id_ce_policyConstraints),
   ("rfc2459.PolicyConstraints", Rfc2459.PolicyConstraints),
   ("rfc2459.id_ce_basicConstraints", Rfc2459.id_ce_basicConstraints),
   ("rfc2459.BasicConstraints", Rfc2459.BasicConstraints),
   ("rfc2459.id_ce_subjectDirectoryAttributes", Rfc2459.id_ce_subjectDirectoryAttributes),
   ("rfc2459.EDIPartyName", Rfc2459.EDIPartyName),
   ("rfc2459.id_ce_deltaCRLIndicator", Rfc2459.id_ce_deltaCRLIndicator),
   ("rfc2459.BaseDistance", Rfc2459.BaseDistance),
   ("rfc2459.id_ce_cRLDistributionPoints", Rfc2459.id_ce_cRLDistributionPoints),
   ("rfc2459.id_ce_issuingDistributionPoint", Rfc2459.id_ce_issuingDistributionPoint),
   ("rfc2459.id_ce_nameConstraints", Rfc2459.id_ce_nameConstraints),
   ("rfc2459.DisplayText", Rfc2459.DisplayText),
   ("rfc2459.NoticeReference", Rfc2459.NoticeReference),
   ("rfc2459.UserNotice", Rfc2459.UserNotice),
   ("rfc2459.CPSuri", Rfc2459.CPSuri),
   ("rfc2459.PolicyQualifierId", Rfc2459.PolicyQualifierId),
   ("rfc2459.CertPolicyId", Rfc2459.CertPolicyId),
   ("rfc2459.PolicyQualifierInfo", Rfc2459.PolicyQualifierInfo),
   ("rfc2459.id_ce_certificatePolicies", Rfc2459.id_ce_certificatePolicies),
   ("rfc2459.PolicyInformation", Rfc2459.PolicyInformation),
   ("rfc2459.CertificatePolicies", Rfc2459.CertificatePolicies),
   ("rfc2459.id_ce_policyMappings", Rfc2459.id_ce_policyMappings),
   ("rfc2459.PolicyMapping", Rfc2459.PolicyMapping),
   ("rfc2459.PolicyMappings", Rfc2459.PolicyMappings),
   ("rfc2459.id_ce_privateKeyUsagePeriod", Rfc2459.id_ce_privateKeyUsagePeriod),
   ("rfc2459.PrivateKeyUsagePeriod", Rfc2459.PrivateKeyUsagePeriod),
   ("rfc2459.id_ce_keyUsage", Rfc2459.id_ce_keyUsage),
   ("rfc2459.KeyUsage", Rfc2459.KeyUsage),
   ("rfc2459.id_ce", Rfc2459.id_ce),
   ("rfc2459.id_ce_authorityKeyIdentifier", Rfc2459.id_ce_authorityKeyIdentifier),
   ("rfc2459.KeyIdentifier", Rfc2459.KeyIdentifier),
   ("rfc2459.id_ce_subjectKeyIdentifier", Rfc2459.id_ce_subjectKeyIdentifier),
   ("rfc2459.SubjectKeyIdentifier", Rfc2459.SubjectKeyIdentifier),
   ("rfc2459.id_ce_certificateIssuer", Rfc2459.id_ce_certificateIssuer),
   ("rfc2459.id_ce_subjectAltName", Rfc2459.id_ce_subjectAltName),
   ("rfc2459.id_ce_issuerAltName", Rfc2459.id_ce_issuerAltName),
   ("rfc2459.AttributeValue", Rfc2459.AttributeValue),
   ("rfc2459.AttributeType", Rfc2459.AttributeType),
   ("rfc2459.AttributeTypeAndValue", Rfc2459.AttributeTypeAndValue),
   ("rfc2459.Attribute", Rfc2459.Attribute),
   ("rfc2459.SubjectDirectoryAttributes", Rfc2459.SubjectDirectoryAttributes),
   ("rfc2459.RelativeDistinguishedName", Rfc2459.RelativeDistinguishedName),
   ("rfc2459.RDNSequence", Rfc2459.RDNSequence),
   ("rfc2459.Name", Rfc2459.Name),
   ("rfc2459.CertificateSerialNumber", Rfc2459.CertificateSerialNumber),
   ("rfc2459.AnotherName", Rfc2459.AnotherName),
   ("rfc2459.GeneralName", Rfc2459.GeneralName),
   ("rfc2459.GeneralNames", Rfc2459.GeneralNames),
   ("rfc2459.AccessDescription", Rfc2459.AccessDescription),
   ("rfc2459.AuthorityInfoAccessSyntax", Rfc2459.AuthorityInfoAccessSyntax),
   ("rfc2459.AuthorityKeyIdentifier", Rfc2459.AuthorityKeyIdentifier),
   ("rfc2459.DistributionPointName", Rfc2459.DistributionPointName),
   ("rfc2459.DistributionPoint", Rfc2459.DistributionPoint),
   ("rfc2459.CRLDistPointsSyntax", Rfc2459.CRLDistPointsSyntax),
   ("rfc2459.IssuingDistributionPoint", Rfc2459.IssuingDistributionPoint),
   ("rfc2459.GeneralSubtree", Rfc2459.GeneralSubtree),
   ("rfc2459.GeneralSubtrees", Rfc2459.GeneralSubtrees),
   ("rfc2459.NameConstraints", Rfc2459.NameConstraints),
   ("rfc2459.CertificateIssuer", Rfc2459.CertificateIssuer),
   ("rfc2459.SubjectAltName", Rfc2459.SubjectAltName),
   ("rfc2459.IssuerAltName", Rfc2459.IssuerAltName),
   ("rfc2459.Extension", Rfc2459.Extension),
   ("rfc2459.Extensions", Rfc2459.Extensions),
   ("rfc2459.SubjectPublicKeyInfo", Rfc2459.SubjectPublicKeyInfo),
   ("rfc2459.UniqueIdentifier", Rfc2459.UniqueIdentifier),
   ("rfc2459.Time", Rfc2459.Time),
   ("rfc2459.Validity", Rfc2459.Validity),
   ("rfc2459.Version", Rfc2459.Version),
   ("rfc2459.TBSCertificate", Rfc2459.TBSCertificate),
   ("rfc2459.Certificate", Rfc2459.Certificate),
   ("rfc2459.RevokedCertificate", Rfc2459.RevokedCertificate),
   ("rfc2459.TBSCertList", Rfc2459.TBSCertList),
   ("rfc2459.CertificateList", Rfc2459.CertificateList)]

def Rfc2459.fills : List (String × Py.Proto) :=
  []

def Rfc2511.steps : List (String × Py.Obj) :=
  [("rfc2511.id_pkix", Rfc2511.id_pkix),
   ("rfc2511.id_pkip", Rfc2511.id_pkip),
   ("rfc2511.id_regCtrl", Rfc2511.id_regCtrl),
   ("rfc2511.id_regCtrl_regToken", Rfc2511.id_regCtrl_regToken),
   ("rfc2511.id_regCtrl_authenticator", Rfc2511.id_regCtrl_authenticator),
   ("rfc2511.id_regCtrl_pkiPublicationInfo", Rfc2511.id_regCtrl_pkiPublicationInfo),
   ("rfc2511.id_regCtrl_pkiArchiveOptions", Rfc2511.id_regCtrl_pkiArchiveOptions),
   ("rfc2511.id_regCtrl_oldCertID", Rfc2511.id_regCtrl_oldCertID),
   ("rfc2511.id_regCtrl_protocolEncrKey", Rfc2511.id_regCtrl_protocolEncrKey),
   ("rfc2511.id_regInfo", Rfc2511.id_regInfo),
   ("rfc2511.id_regInfo_utf8Pairs", Rfc2511.id_regInfo_utf8Pairs),
   ("rfc2511.id_regInfo_certReq", Rfc2511.id_regInfo_certReq),
   ("rfc2511.GeneralName", Rfc2511.GeneralName),
   ("rfc2511.UTF8Pairs", Rfc2511.UTF8Pairs),
   ("rfc2511.ProtocolEncrKey", Rfc2511.ProtocolEncrKey),
   ("rfc2511.CertId", Rfc2511.CertId),
   ("rfc2511.OldCertId", Rfc2511.OldCertId),
   ("rfc2511.KeyGenParameters", Rfc2511.KeyGenParameters),
   ("rfc2511.EncryptedValue", Rfc2511.EncryptedValue),
   ("rfc2511.EncryptedKey", Rfc2511.EncryptedKey),
   ("rfc2511.PKIArchiveOptions", Rfc2511.PKIArchiveOptions),
   ("rfc2511.SinglePubInfo", Rfc2511.SinglePubInfo),
   ("rfc2511.PKIPublicationInfo", Rfc2511.PKIPublicationInfo),
   ("rfc2511.Authenticator", Rfc2511.Authenticator),
   ("rfc2511.RegToken", Rfc2511.RegToken),
   ("rfc2511.SubsequentMessage", Rfc2511.SubsequentMessage),
   ("rfc2511.POPOPrivKey", Rfc2511.POPOPrivKey),
   ("rfc2511.PBMParameter", Rfc2511.PBMParameter),
   ("rfc2511.PKMACValue", Rfc2511.PKMACValue),
   ("rfc2511.POPOSigningKeyInput", Rfc2511.POPOSigningKeyInput),
   ("rfc2511.POPOSigningKey", Rfc2511.POPOSigningKey),
   ("rfc2511.ProofOfPossession", Rfc2511.ProofOfPossession),
   ("rfc2511.Controls", Rfc2511.Controls),
   ("rfc2511.OptionalValidity", Rfc2511.OptionalValidity),
   ("rfc2511.CertTemplate", Rfc2511.CertTemplate),
   ("rfc2511.CertRequest", Rfc2511.CertRequest),
   ("rfc2511.CertReq", Rfc2511.CertReq),
   ("rfc2511.CertReqMsg", Rfc2511.CertReqMsg),
   ("rfc2511.CertReqMessages", Rfc2511.CertReqMessages)]

def Rfc2511.fills : List (String × Py.Proto) :=
  []

def Rfc2560.steps : List (String × Py.Obj) :=
  [("rfc2560.CRLReason", Rfc2560.CRLReason),
   ("rfc2560.GeneralName", Rfc2560.GeneralName),
   ("rfc2560.id_kp_OCSPSigning", Rfc2560.id_kp_OCSPSigning),
   ("rfc2560.id_pkix_ocsp", Rfc2560.id_pkix_ocsp),
   ("rfc2560.id_pkix_ocsp_basic", Rfc2560.id_pkix_ocsp_basic),
   ("rfc2560.id_pkix_ocsp_nonce", Rfc2560.id_pkix_ocsp_nonce),
   ("rfc2560.id_pkix_ocsp_crl", Rfc2560.id_pkix_ocsp_crl),
   ("rfc2560.id_pkix_ocsp_response", Rfc2560.id_pkix_ocsp_response),
   ("rfc2560.id_pkix_ocsp_nocheck", Rfc2560.id_pkix_ocsp_nocheck),
   ("rfc2560.id_pkix_ocsp_archive_cutoff", Rfc2560.id_pkix_ocsp_archive_cutoff),
   ("rfc2560.id_pkix_ocsp_service_locator", Rfc2560.id_pkix_ocsp_service_locator),
   ("rfc2560.AcceptableResponses", Rfc2560.AcceptableResponses),
   ("rfc2560.ArchiveCutoff", Rfc2560.ArchiveCutoff),
   ("rfc2560.UnknownInfo", Rfc2560.UnknownInfo),
   ("rfc2560.RevokedInfo", Rfc2560.RevokedInfo),
   ("rfc2560.CertID", Rfc2560.CertID),
   ("rfc2560.CertStatus", Rfc2560.CertStatus),
   ("rfc2560.SingleResponse", Rfc2560.SingleResponse),
   ("rfc2560.KeyHash", Rfc2560.KeyHash),
   ("rfc2560.ResponderID", Rfc2560.ResponderID),
   ("rfc2560.Version", Rfc2560.Version),
   ("rfc2560.ResponseData", Rfc2560.ResponseData),
   ("rfc2560.BasicOCSPResponse", Rfc2560.BasicOCSPResponse),
   ("rfc2560.ResponseBytes", Rfc2560.ResponseBytes),
   ("rfc2560.OCSPResponseStatus", Rfc2560.OCSPResponseStatus),
   ("rfc2560.OCSPResponse", Rfc2560.OCSPResponse),
   ("rfc2560.Request", Rfc2560.Request),
   ("rfc2560.Signature", Rfc2560.Signature),
   ("rfc2560.TBSRequest", Rfc2560.TBSRequest),
   ("rfc2560.OCSPRequest", Rfc2560.OCSPRequest)]

def Rfc2560.fills : List (String × Py.Proto) :=
  []

def Rfc2631.steps : List (String × Py.Obj) :=
  [("rfc2631.KeySpecificInfo", Rfc2631.KeySpecificInfo),
   ("rfc2631.OtherInfo", Rfc2631.OtherInfo)]

def Rfc2631.fills : List (String × Py.Proto) :=
  []

def Rfc2634.steps : List (String × Py.Obj) :=
  [("rfc2634.ContentType", Rfc2634.ContentType),
   ("rfc2634.IssuerAndSerialNumber", Rfc2634.IssuerAndSerialNumber),
   ("rfc2634.SubjectKeyIdentifier", Rfc2634.SubjectKeyIdentifier),
   ("rfc2634.PolicyInformation", Rfc2634.PolicyInformation),
   ("rfc2634.GeneralNames", Rfc2634.GeneralNames),
   ("rfc2634.CertificateSerialNumber", Rfc2634.CertificateSerialNumber),
   ("rfc2634.id_aa_signingCertificate", Rfc2634.id_aa_signingCertificate),
   ("rfc2634.Hash", Rfc2634.Hash),
   ("rfc2634.IssuerSerial__0", Rfc2634.IssuerSerial__0),
   ("rfc2634.IssuerSerial", Rfc2634.IssuerSerial),
   ("rfc2634.ESSCertID__0", Rfc2634.ESSCertID__0),
   ("rfc2634.ESSCertID", Rfc2634.ESSCertID),
   ("rfc2634.SigningCertificate__0", Rfc2634.SigningCertificate__0),
   ("rfc2634.SigningCertificate", Rfc2634.SigningCertificate),
   ("rfc2634.id_aa_mlExpandHistory", Rfc2634.id_aa_mlExpandHistory),
   ("rfc2634.ub_ml_expansion_history", Rfc2634.ub_ml_expansion_history),
   ("rfc2634.EntityIdentifier__0", Rfc2634.EntityIdentifier__0),
   ("rfc2634.EntityIdentifier", Rfc2634.EntityIdentifier),
   ("rfc2634.MLReceiptPolicy__0", Rfc2634.MLReceiptPolicy__0),
   ("rfc2634.MLReceiptPolicy", Rfc2634.MLReceiptPolicy),
   ("rfc2634.MLData__0", Rfc2634.MLData__0),
   ("rfc2634.MLData", Rfc2634.MLData),
   ("rfc2634.MLExpansionHistory__0", Rfc2634.MLExpansionHistory__0),
   ("rfc2634.MLExpansionHistory__1", Rfc2634.MLExpansionHistory__1),
   ("rfc2634.MLExpansionHistory", Rfc2634.MLExpansionHistory),
   ("rfc2634.id_aa_securityLabel", Rfc2634.id_aa_securityLabel),
   ("rfc2634.ub_privacy_mark_length", Rfc2634.ub_privacy_mark_length),
   ("rfc2634.ub_security_categories", Rfc2634.ub_security_categories),
   ("rfc2634.ub_integer_options", Rfc2634.ub_integer_options),
   ("rfc2634.ESSPrivacyMark__0", Rfc2634.ESSPrivacyMark__0),
   ("rfc2634.ESSPrivacyMark", Rfc2634.ESSPrivacyMark),
   ("rfc2634.SecurityClassification__0", Rfc2634.SecurityClassification__0),
   ("rfc2634.SecurityClassification__1", Rfc2634.SecurityClassification__1),
   ("rfc2634.SecurityClassification", Rfc2634.SecurityClassification),
   ("rfc2634.SecurityPolicyIdentifier", Rfc2634.SecurityPolicyIdentifier),
   ("rfc2634.SecurityCategory__0", Rfc2634.SecurityCategory__0),
   ("rfc2634.SecurityCategory", Rfc2634.SecurityCategory),
   ("rfc2634.SecurityCategories__0", Rfc2634.SecurityCategories__0),
   ("rfc2634.SecurityCategories__1", Rfc2634.SecurityCategories__1),
   ("rfc2634.SecurityCategories", Rfc2634.SecurityCategories),
   ("rfc2634.ESSSecurityLabel__0", Rfc2634.ESSSecurityLabel__0),
   ("rfc2634.ESSSecurityLabel", Rfc2634.ESSSecurityLabel),
   ("rfc2634.id_aa_equivalentLabels", Rfc2634.id_aa_equivalentLabels),
   ("rfc2634.EquivalentLabels__0", Rfc2634.EquivalentLabels__0),
   ("rfc2634.EquivalentLabels", Rfc2634.EquivalentLabels),
   ("rfc2634.id_aa_contentIdentifier", Rfc2634.id_aa_contentIdentifier),
   ("rfc2634.ContentIdentifier", Rfc2634.ContentIdentifier),
   ("rfc2634.id_aa_contentReference", Rfc2634.id_aa_contentReference),
   ("rfc2634.ContentReference__0", Rfc2634.ContentReference__0),
   ("rfc2634.ContentReference", Rfc2634.ContentReference),
   ("rfc2634.id_aa_msgSigDigest", Rfc2634.id_aa_msgSigDigest),
   ("rfc2634.MsgSigDigest", Rfc2634.MsgSigDigest),
   ("rfc2634.id_aa_contentHint", Rfc2634.id_aa_contentHint),
   ("rfc2634.ContentHints__0", Rfc2634.ContentHints__0),
   ("rfc2634.ContentHints", Rfc2634.ContentHints),
   ("rfc2634.AllOrFirstTier__0", Rfc2634.AllOrFirstTier__0),
   ("rfc2634.AllOrFirstTier", Rfc2634.AllOrFirstTier),
   ("rfc2634.ReceiptsFrom__0", Rfc2634.ReceiptsFrom__0),
   ("rfc2634.ReceiptsFrom", Rfc2634.ReceiptsFrom),
   ("rfc2634.id_aa_receiptRequest", Rfc2634.id_aa_receiptRequest),
   ("rfc2634.ub_receiptsTo", Rfc2634.ub_receiptsTo),
   ("rfc2634.ReceiptRequest__0", Rfc2634.ReceiptRequest__0),
   ("rfc2634.ReceiptRequest", Rfc2634.ReceiptRequest),
   ("rfc2634.ESSVersion__0", Rfc2634.ESSVersion__0),
   ("rfc2634.ESSVersion", Rfc2634.ESSVersion),
   ("rfc2634.id_ct_receipt", Rfc2634.id_ct_receipt),
   ("rfc2634.Receipt__0", Rfc2634.Receipt__0),
   ("rfc2634.Receipt", Rfc2634.Receipt)]

def Rfc2634.fills : List (String × Py.Proto) :=
  []

def Rfc2876.steps : List (String × Py.Obj) :=
  [("rfc2876.id_fortezzaConfidentialityAlgorithm", Rfc2876.id_fortezzaConfidentialityAlgorithm),
   ("rfc2876.id_fortezzaWrap80", Rfc2876.id_fortezzaWrap80),
   ("rfc2876.id_kEAKeyEncryptionAlgorithm", Rfc2876.id_kEAKeyEncryptionAlgorithm),
   ("rfc2876.id_keyExchangeAlgorithm", Rfc2876.id_keyExchangeAlgorithm),
   ("rfc2876.Skipjack_Parm", Rfc2876.Skipjack_Parm)]

def Rfc2876.fills : List (String × Py.Proto) :=
  []

def Rfc2985.steps : List (String × Py.Obj) :=
  [("rfc2985.AlgorithmIdentifier", Rfc2985.AlgorithmIdentifier),
   ("rfc2985.Attribute", Rfc2985.Attribute),
   ("rfc2985.EmailAddress", Rfc2985.EmailAddress),
   ("rfc2985.Extensions", Rfc2985.Extensions),
   ("rfc2985.Time", Rfc2985.Time),
   ("rfc2985.X520countryName", Rfc2985.X520countryName),
   ("rfc2985.X520SerialNumber", Rfc2985.X520SerialNumber),
   ("rfc2985.ContentInfo", Rfc2985.ContentInfo),
   ("rfc2985.ContentType", Rfc2985.ContentType),
   ("rfc2985.Countersignature", Rfc2985.Countersignature),
   ("rfc2985.MessageDigest", Rfc2985.MessageDigest),
   ("rfc2985.SignerInfo", Rfc2985.SignerInfo),
   ("rfc2985.SigningTime", Rfc2985.SigningTime),
   ("rfc2985.EncryptedPrivateKeyInfo", Rfc2985.EncryptedPrivateKeyInfo),
   ("rfc2985.PFX", Rfc2985.PFX),
   ("rfc2985.AttributeType", Rfc2985.AttributeType),
   ("rfc2985.AttributeValue", Rfc2985.AttributeValue),
   ("rfc2985.AttributeValues__0", Rfc2985.AttributeValues__0),
   ("rfc2985.AttributeValues", Rfc2985.AttributeValues),
   ("rfc2985.SingleAttributeValues__0", Rfc2985.SingleAttributeValues__0),
   ("rfc2985.SingleAttributeValues", Rfc2985.SingleAttributeValues),
   ("rfc2985.SingleAttribute__0", Rfc2985.SingleAttribute__0),
   ("rfc2985.SingleAttribute", Rfc2985.SingleAttribute),
   ("rfc2985.CMSAttribute", Rfc2985.CMSAttribute),
   ("rfc2985.CMSSingleAttribute__0", Rfc2985.CMSSingleAttribute__0),
   ("rfc2985.CMSSingleAttribute", Rfc2985.CMSSingleAttribute),
   ("rfc2985.DirectoryString__0", Rfc2985.DirectoryString__0),
   ("rfc2985.DirectoryString", Rfc2985.DirectoryString),
   ("rfc2985.PKCS9String__0", Rfc2985.PKCS9String__0),
   ("rfc2985.PKCS9String", Rfc2985.PKCS9String),
   ("rfc2985.pkcs_9_ub_pkcs9String", Rfc2985.pkcs_9_ub_pkcs9String),
   ("rfc2985.pkcs_9_ub_challengePassword", Rfc2985.pkcs_9_ub_challengePassword),
   ("rfc2985.pkcs_9_ub_emailAddress", Rfc2985.pkcs_9_ub_emailAddress),
   ("rfc2985.pkcs_9_ub_friendlyName", Rfc2985.pkcs_9_ub_friendlyName),
   ("rfc2985.pkcs_9_ub_match", Rfc2985.pkcs_9_ub_match),
   ("rfc2985.pkcs_9_ub_signingDescription", Rfc2985.pkcs_9_ub_signingDescription),
   ("rfc2985.pkcs_9_ub_unstructuredAddress", Rfc2985.pkcs_9_ub_unstructuredAddress),
   ("rfc2985.pkcs_9_ub_unstructuredName", Rfc2985.pkcs_9_ub_unstructuredName),
   ("rfc2985.ub_name", Rfc2985.ub_name),
   ("rfc2985.pkcs_9_ub_placeOfBirth", Rfc2985.pkcs_9_ub_placeOfBirth),
   ("rfc2985.pkcs_9_ub_pseudonym", Rfc2985.pkcs_9_ub_pseudonym),
   ("rfc2985.ietf_at", Rfc2985.ietf_at),
   ("rfc2985.id_at", Rfc2985.id_at),
   ("rfc2985.pkcs_9", Rfc2985.pkcs_9),
   ("rfc2985.pkcs_9_mo", Rfc2985.pkcs_9_mo),
   ("rfc2985.smime", Rfc2985.smime),
   ("rfc2985.certTypes", Rfc2985.certTypes),
   ("rfc2985.crlTypes", Rfc2985.crlTypes),
   ("rfc2985.pkcs_9_oc", Rfc2985.pkcs_9_oc),
   ("rfc2985.pkcs_9_at", Rfc2985.pkcs_9_at),
   ("rfc2985.pkcs_9_sx", Rfc2985.pkcs_9_sx),
   ("rfc2985.pkcs_9_mr", Rfc2985.pkcs_9_mr),
   ("rfc2985.pkcs_9_sx_pkcs9String", Rfc2985.pkcs_9_sx_pkcs9String),
   ("rfc2985.pkcs_9_sx_signingTime", Rfc2985.pkcs_9_sx_signingTime),
   ("rfc2985.pkcs_9_oc_pkcsEntity", Rfc2985.pkcs_9_oc_pkcsEntity),
   ("rfc2985.pkcs_9_oc_naturalPerson", Rfc2985.pkcs_9_oc_naturalPerson),
   ("rfc2985.pkcs_9_mr_caseIgnoreMatch", Rfc2985.pkcs_9_mr_caseIgnoreMatch),
   ("rfc2985.pkcs_9_mr_signingTimeMatch", Rfc2985.pkcs_9_mr_signingTimeMatch),
   ("rfc2985.pkcs_9_at_pkcs7PDU", Rfc2985.pkcs_9_at_pkcs7PDU),
   ("rfc2985.pkcs_9_at_userPKCS12", Rfc2985.pkcs_9_at_userPKCS12),
   ("rfc2985.pkcs_9_at_pkcs15Token", Rfc2985.pkcs_9_at_pkcs15Token),
   ("rfc2985.pkcs_9_at_encryptedPrivateKeyInfo", Rfc2985.pkcs_9_at_encryptedPrivateKeyInfo),
   ("rfc2985.pkcs_9_at_emailAddress", Rfc2985.pkcs_9_at_emailAddress),
   ("rfc2985.pkcs_9_at_unstructuredName", Rfc2985.pkcs_9_at_unstructuredName),
   ("rfc2985.pkcs_9_at_unstructuredAddress", Rfc2985.pkcs_9_at_unstructuredAddress),
   ("rfc2985.pkcs_9_at_dateOfBirth", Rfc2985.pkcs_9_at_dateOfBirth),
   ("rfc2985.pkcs_9_at_placeOfBirth", Rfc2985.pkcs_9_at_placeOfBirth),
   ("rfc2985.GenderString__0", Rfc2985.GenderString__0),
   ("rfc2985.GenderString__1", Rfc2985.GenderString__1),
   ("rfc2985.GenderString", Rfc2985.GenderString),
   ("rfc2985.pkcs_9_at_gender", Rfc2985.pkcs_9_at_gender),
   ("rfc2985.pkcs_9_at_countryOfCitizenship", Rfc2985.pkcs_9_at_countryOfCitizenship),
   ("rfc2985.pkcs_9_at_countryOfResidence", Rfc2985.pkcs_9_at_countryOfResidence),
   ("rfc2985.id_at_pseudonym", Rfc2985.id_at_pseudonym),
   ("rfc2985.id_at_serialNumber", Rfc2985.id_at_serialNumber),
   ("rfc2985.pkcs_9_at_contentType", Rfc2985.pkcs_9_at_contentType),
   ("rfc2985.pkcs_9_at_messageDigest", Rfc2985.pkcs_9_at_messageDigest),
   ("rfc2985.pkcs_9_at_signingTime", Rfc2985.pkcs_9_at_signingTime),
   ("rfc2985.RandomNonce__0", Rfc2985.RandomNonce__0),
   ("rfc2985.RandomNonce", Rfc2985.RandomNonce),
   ("rfc2985.pkcs_9_at_randomNonce", Rfc2985.pkcs_9_at_randomNonce),
   ("rfc2985.SequenceNumber__0", Rfc2985.SequenceNumber__0),
   ("rfc2985.SequenceNumber", Rfc2985.SequenceNumber),
   ("rfc2985.pkcs_9_at_sequenceNumber", Rfc2985.pkcs_9_at_sequenceNumber),
   ("rfc2985.pkcs_9_at_counterSignature", Rfc2985.pkcs_9_at_counterSignature),
   ("rfc2985.pkcs_9_at_challengePassword", Rfc2985.pkcs_9_at_challengePassword),
   ("rfc2985.ExtensionRequest", Rfc2985.ExtensionRequest),
   ("rfc2985.pkcs_9_at_extensionRequest", Rfc2985.pkcs_9_at_extensionRequest),
   ("rfc2985.AttributeSet__0", Rfc2985.AttributeSet__0),
   ("rfc2985.AttributeSet", Rfc2985.AttributeSet),
   ("rfc2985.pkcs_9_at_extendedCertificateAttributes", Rfc2985.pkcs_9_at_extendedCertificateAttributes),
   ("rfc2985.FriendlyName__0", Rfc2985.FriendlyName__0),
   ("rfc2985.FriendlyName", Rfc2985.FriendlyName),
   ("rfc2985.pkcs_9_at_friendlyName", Rfc2985.pkcs_9_at_friendlyName),
   ("rfc2985.pkcs_9_at_localKeyId", Rfc2985.pkcs_9_at_localKeyId),
   ("rfc2985.pkcs_9_at_signingDescription", Rfc2985.pkcs_9_at_signingDescription),
   ("rfc2985.SMIMECapability", Rfc2985.SMIMECapability),
   ("rfc2985.SMIMECapabilities__0", Rfc2985.SMIMECapabilities__0),
   ("rfc2985.SMIMECapabilities", Rfc2985.SMIMECapabilities),
   ("rfc2985.pkcs_9_at_smimeCapabilities", Rfc2985.pkcs_9_at_smimeCapabilities)]

def Rfc2985.fills : List (String × Py.Proto) :=
  [("rfc2985.pKCS7PDU__0", Rfc2985.pKCS7PDU__0),
   ("rfc2985.pKCS7PDU__1", Rfc2985.pKCS7PDU__1),
   ("rfc2985.pKCS7PDU", Rfc2985.pKCS7PDU),
   ("rfc2985.userPKCS12__0", Rfc2985.userPKCS12__0),
   ("rfc2985.userPKCS12__1", Rfc2985.userPKCS12__1),
   ("rfc2985.userPKCS12", Rfc2985.userPKCS12),
   ("rfc2985.encryptedPrivateKeyInfo__0", Rfc2985.encryptedPrivateKeyInfo__0),
   ("rfc2985.encryptedPrivateKeyInfo__1", Rfc2985.encryptedPrivateKeyInfo__1),
   ("rfc2985.encryptedPrivateKeyInfo", Rfc2985.encryptedPrivateKeyInfo),
   ("rfc2985.emailAddress__0", Rfc2985.emailAddress__0),
   ("rfc2985.emailAddress__1", Rfc2985.emailAddress__1),
   ("rfc2985.emailAddress", Rfc2985.emailAddress),
   ("rfc2985.unstructuredName__0", Rfc2985.unstructuredName__0),
   ("rfc2985.unstructuredName__1", Rfc2985.unstructuredName__1),
   ("rfc2985.unstructuredName", Rfc2985.unstructuredName),
   ("rfc2985.unstructuredAddress__0", Rfc2985.unstructuredAddress__0),
   ("rfc2985.unstructuredAddress__1", Rfc2985.unstructuredAddress__1),
   ("rfc2985.unstructuredAddress", Rfc2985.unstructuredAddress),
   ("rfc2985.dateOfBirth__0", Rfc2985.dateOfBirth__0),
   ("rfc2985.dateOfBirth__1", Rfc2985.dateOfBirth__1),
   ("rfc2985.dateOfBirth", Rfc2985.dateOfBirth),
   ("rfc2985.placeOfBirth__0", Rfc2985.placeOfBirth__0),
   ("rfc2985.placeOfBirth__1", Rfc2985.placeOfBirth__1),
   ("rfc2985.placeOfBirth", Rfc2985.placeOfBirth),
   ("rfc2985.gender__0", Rfc2985.gender__0),
   ("rfc2985.gender__1", Rfc2985.gender__1),
   ("rfc2985.gender", Rfc2985.gender),
   ("rfc2985.countryOfCitizenship__0", Rfc2985.countryOfCitizenship__0),
   ("rfc2985.countryOfCitizenship__1", Rfc2985.countryOfCitizenship__1),
   ("rfc2985.countryOfCitizenship", Rfc2985.countryOfCitizenship),
   ("rfc2985.countryOfResidence__0", Rfc2985.countryOfResidence__0),
   ("rfc2985.countryOfResidence__1", Rfc2985.countryOfResidence__1),
   ("rfc2985.countryOfResidence", Rfc2985.countryOfResidence),
   ("rfc2985.pseudonym__0", Rfc2985.pseudonym__0),
   ("rfc2985.pseudonym__1", Rfc2985.pseudonym__1),
   ("rfc2985.pseudonym", Rfc2985.pseudonym),
   ("rfc2985.serialNumber__0", Rfc2985.serialNumber__0),
   ("rfc2985.serialNumber__1", Rfc2985.serialNumber__1),
   ("rfc2985.serialNumber", Rfc2985.serialNumber),
   ("rfc2985.contentType__0", Rfc2985.contentType__0),
   ("rfc2985.contentType__1", Rfc2985.contentType__1),
   ("rfc2985.contentType", Rfc2985.contentType),
   ("rfc2985.messageDigest__0", Rfc2985.messageDigest__0),
   ("rfc2985.messageDigest__1", Rfc2985.messageDigest__1),
   ("rfc2985.messageDigest", Rfc2985.messageDigest),
   ("rfc2985.signingTime__0", Rfc2985.signingTime__0),
   ("rfc2985.signingTime__1", Rfc2985.signingTime__1),
   ("rfc2985.signingTime", Rfc2985.signingTime),
   ("rfc2985.randomNonce__0", Rfc2985.randomNonce__0),
   ("rfc2985.randomNonce__1", Rfc2985.randomNonce__1),
   ("rfc2985.randomNonce", Rfc2985.randomNonce),
   ("rfc2985.sequenceNumber__0", Rfc2985.sequenceNumber__0),
   ("rfc2985.sequenceNumber__1", Rfc2985.sequenceNumber__1),
   ("rfc2985.sequenceNumber", Rfc2985.sequenceNumber),
   ("rfc2985.counterSignature__0", Rfc2985.counterSignature__0),
   ("rfc2985.counterSignature__1", Rfc2985.counterSignature__1),
   ("rfc2985.counterSignature", Rfc2985.counterSignature),
   ("rfc2985.challengePassword__0", Rfc2985.challengePassword__0),
   ("rfc2985.challengePassword__1", Rfc2985.challengePassword__1),
   ("rfc2985.challengePassword", Rfc2985.challengePassword),
   ("rfc2985.extensionRequest__0", Rfc2985.extensionRequest__0),
   ("rfc2985.extensionRequest__1", Rfc2985.extensionRequest__1),
   ("rfc2985.extensionRequest", Rfc2985.extensionRequest),
   ("rfc2985.extendedCertificateAttributes__0", Rfc2985.extendedCertificateAttributes__0),
   ("rfc2985.extendedCertificateAttributes__1", Rfc2985.extendedCertificateAttributes__1),
   ("rfc2985.extendedCertificateAttributes", Rfc2985.extendedCertificateAttributes),
   ("rfc2985.friendlyName__0", Rfc2985.friendlyName__0),
   ("rfc2985.friendlyName__1", Rfc2985.friendlyName__1),
   ("rfc2985.friendlyName", Rfc2985.friendlyName),
   ("rfc2985.localKeyId__0", Rfc2985.localKeyId__0),
   ("rfc2985.localKeyId__1", Rfc2985.localKeyId__1),
   ("rfc2985.localKeyId", Rfc2985.localKeyId),
   ("rfc2985.signingDescription__0", Rfc2985.signingDescription__0),
   ("rfc2985.signingDescription__1", Rfc2985.signingDescription__1),
   ("rfc2985.signingDescription", Rfc2985.signingDescription),
   ("rfc2985.smimeCapabilities__0", Rfc2985.smimeCapabilities__0),
   ("rfc2985.smimeCapabilities__1", Rfc2985.smimeCapabilities__1),
   ("rfc2985.smimeCapabilities", Rfc2985.smimeCapabilities)]

def Rfc2986.steps : List (String × Py.Obj) :=
  [("rfc2986.AttributeType", Rfc2986.AttributeType),
   ("rfc2986.AttributeValue", Rfc2986.AttributeValue),
   ("rfc2986.AttributeTypeAndValue", Rfc2986.AttributeTypeAndValue),
   ("rfc2986.Attribute", Rfc2986.Attribute),
   ("rfc2986.RelativeDistinguishedName", Rfc2986.RelativeDistinguishedName),
   ("rfc2986.RDNSequence", Rfc2986.RDNSequence),
   ("rfc2986.Name", Rfc2986.Name),
   ("rfc2986.AlgorithmIdentifier", Rfc2986.AlgorithmIdentifier),
   ("rfc2986.SubjectPublicKeyInfo", Rfc2986.SubjectPublicKeyInfo),
   ("rfc2986.Attributes__0", Rfc2986.Attributes__0),
   ("rfc2986.Attributes", Rfc2986.Attributes),
   ("rfc2986.CertificationRequestInfo__0", Rfc2986.CertificationRequestInfo__0),
   ("rfc2986.CertificationRequestInfo", Rfc2986.CertificationRequestInfo),
   ("rfc2986.CertificationRequest__0", Rfc2986.CertificationRequest__0),
   ("rfc2986.CertificationRequest", Rfc2986.CertificationRequest)]

def Rfc2986.fills : List (String × Py.Proto) :=
  []

def Rfc3058.steps : List (String × Py.Obj) :=
  [("rfc3058.id_IDEA_CBC", Rfc3058.id_IDEA_CBC),
   ("rfc3058.id_alg_CMSIDEAwrap", Rfc3058.id_alg_CMSIDEAwrap),
   ("rfc3058.IDEA_CBCPar", Rfc3058.IDEA_CBCPar)]

def Rfc3058.fills : List (String × Py.Proto) :=
  []

def Rfc3114.steps : List (String × Py.Obj) :=
  [("rfc3114.id_smime", Rfc3114.id_smime),
   ("rfc3114.id_tsp", Rfc3114.id_tsp),
   ("rfc3114.id_tsp_TEST_Amoco", Rfc3114.id_tsp_TEST_Amoco),
   ("rfc3114.Amoco_SecurityClassification", Rfc3114.Amoco_SecurityClassification),
   ("rfc3114.id_tsp_TEST_Caterpillar", Rfc3114.id_tsp_TEST_Caterpillar),
   ("rfc3114.Caterpillar_SecurityClassification", Rfc3114.Caterpillar_SecurityClassification),
   ("rfc3114.id_tsp_TEST_Whirlpool", Rfc3114.id_tsp_TEST_Whirlpool),
   ("rfc3114.Whirlpool_SecurityClassification", Rfc3114.Whirlpool_SecurityClassification),
   ("rfc3114.id_tsp_TEST_Whirlpool_Categories", Rfc3114.id_tsp_TEST_Whirlpool_Categories),
   ("rfc3114.SecurityCategoryValues", Rfc3114.SecurityCategoryValues)]

def Rfc3114.fills : List (String × Py.Proto) :=
  []

def Rfc3125.steps : List (String × Py.Obj) :=
  [("rfc3125.AlgorithmIdentifier", Rfc3125.AlgorithmIdentifier),
   ("rfc3125.Attribute", Rfc3125.Attribute),
   ("rfc3125.AttributeType", Rfc3125.AttributeType),
   ("rfc3125.AttributeTypeAndValue", Rfc3125.AttributeTypeAndValue),
   ("rfc3125.AttributeValue", Rfc3125.AttributeValue),
   ("rfc3125.Certificate", Rfc3125.Certificate),
   ("rfc3125.CertificateList", Rfc3125.CertificateList),
   ("rfc3125.DirectoryString", Rfc3125.DirectoryString),
   ("rfc3125.GeneralName", Rfc3125.GeneralName),
   ("rfc3125.GeneralNames", Rfc3125.GeneralNames),
   ("rfc3125.Name", Rfc3125.Name),
   ("rfc3125.PolicyInformation", Rfc3125.PolicyInformation),
   ("rfc3125.CertPolicyId", Rfc3125.CertPolicyId),
   ("rfc3125.AcceptablePolicySet", Rfc3125.AcceptablePolicySet),
   ("rfc3125.SignPolExtn", Rfc3125.SignPolExtn),
   ("rfc3125.SignPolExtensions", Rfc3125.SignPolExtensions),
   ("rfc3125.AlgAndLength", Rfc3125.AlgAndLength),
   ("rfc3125.AlgorithmConstraints", Rfc3125.AlgorithmConstraints),
   ("rfc3125.AlgorithmConstraintSet", Rfc3125.AlgorithmConstraintSet),
   ("rfc3125.AttributeValueConstraints", Rfc3125.AttributeValueConstraints),
   ("rfc3125.AttributeTypeConstraints", Rfc3125.AttributeTypeConstraints),
   ("rfc3125.AttributeConstraints", Rfc3125.AttributeConstraints),
   ("rfc3125.HowCertAttribute", Rfc3125.HowCertAttribute),
   ("rfc3125.SkipCerts", Rfc3125.SkipCerts),
   ("rfc3125.PolicyConstraints", Rfc3125.PolicyConstraints),
   ("rfc3125.BaseDistance", Rfc3125.BaseDistance),
   ("rfc3125.GeneralSubtree", Rfc3125.GeneralSubtree),
   ("rfc3125.GeneralSubtrees", Rfc3125.GeneralSubtrees),
   ("rfc3125.NameConstraints", Rfc3125.NameConstraints),
   ("rfc3125.PathLenConstraint", Rfc3125.PathLenConstraint),
   ("rfc3125.CertificateTrustPoint", Rfc3125.CertificateTrustPoint),
   ("rfc3125.CertificateTrustTrees", Rfc3125.CertificateTrustTrees),
   ("rfc3125.EnuRevReq", Rfc3125.EnuRevReq),
   ("rfc3125.RevReq", Rfc3125.RevReq),
   ("rfc3125.CertRevReq", Rfc3125.CertRevReq),
   ("rfc3125.AttributeTrustCondition", Rfc3125.AttributeTrustCondition),
   ("rfc3125.CMSAttrs", Rfc3125.CMSAttrs),
   ("rfc3125.CertInfoReq", Rfc3125.CertInfoReq),
   ("rfc3125.CertRefReq", Rfc3125.CertRefReq),
   ("rfc3125.DeltaTime", Rfc3125.DeltaTime),
   ("rfc3125.TimestampTrustCondition", Rfc3125.TimestampTrustCondition),
   ("rfc3125.SignerRules", Rfc3125.SignerRules),
   ("rfc3125.MandatedUnsignedAttr", Rfc3125.MandatedUnsignedAttr),
   ("rfc3125.VerifierRules", Rfc3125.VerifierRules),
   ("rfc3125.SignerAndVerifierRules", Rfc3125.SignerAndVerifierRules),
   ("rfc3125.SigningCertTrustCondition", Rfc3125.SigningCertTrustCondition),
   ("rfc3125.CommitmentTypeIdentifier", Rfc3125.CommitmentTypeIdentifier),
   ("rfc3125.FieldOfApplication", Rfc3125.FieldOfApplication),
   ("rfc3125.CommitmentType", Rfc3125.CommitmentType),
   ("rfc3125.SelectedCommitmentTypes", Rfc3125.SelectedCommitmentTypes),
   ("rfc3125.CommitmentRule", Rfc3125.CommitmentRule),
   ("rfc3125.CommitmentRules", Rfc3125.CommitmentRules),
   ("rfc3125.CommonRules", Rfc3125.CommonRules),
   ("rfc3125.PolicyIssuerName", Rfc3125.PolicyIssuerName),
   ("rfc3125.SignPolicyHash", Rfc3125.SignPolicyHash),
   ("rfc3125.SignPolicyId", Rfc3125.SignPolicyId),
   ("rfc3125.SigningPeriod", Rfc3125.SigningPeriod),
   ("rfc3125.SignatureValidationPolicy", Rfc3125.SignatureValidationPolicy),
   ("rfc3125.SignPolicyInfo", Rfc3125.SignPolicyInfo),
   ("rfc3125.SignaturePolicy", Rfc3125.SignaturePolicy)]

def Rfc3125.fills : List (String × Py.Proto) :=
  []

def Rfc3161.steps : List (String × Py.Obj) :=
  [("rfc3161.Extensions", Rfc3161.Extensions),
   ("rfc3161.AlgorithmIdentifier", Rfc3161.AlgorithmIdentifier),
   ("rfc3161.GeneralName", Rfc3161.GeneralName),
   ("rfc3161.ContentInfo", Rfc3161.ContentInfo),
   ("rfc3161.PKIFreeText", Rfc3161.PKIFreeText),
   ("rfc3161.id_ct_TSTInfo", Rfc3161.id_ct_TSTInfo),
   ("rfc3161.Accuracy__0", Rfc3161.Accuracy__0),
   ("rfc3161.Accuracy", Rfc3161.Accuracy),
   ("rfc3161.MessageImprint__0", Rfc3161.MessageImprint__0),
   ("rfc3161.MessageImprint", Rfc3161.MessageImprint),
   ("rfc3161.PKIFailureInfo__0", Rfc3161.PKIFailureInfo__0),
   ("rfc3161.PKIFailureInfo", Rfc3161.PKIFailureInfo),
   ("rfc3161.PKIStatus__0", Rfc3161.PKIStatus__0),
   ("rfc3161.PKIStatus", Rfc3161.PKIStatus),
   ("rfc3161.PKIStatusInfo__0", Rfc3161.PKIStatusInfo__0),
   ("rfc3161.PKIStatusInfo", Rfc3161.PKIStatusInfo),
   ("rfc3161.TSAPolicyId", Rfc3161.TSAPolicyId),
   ("rfc3161.TSTInfo__0", Rfc3161.TSTInfo__0),
   ("rfc3161.TSTInfo", Rfc3161.TSTInfo),
   ("rfc3161.TimeStampReq__0", Rfc3161.TimeStampReq__0),
   ("rfc3161.TimeStampReq", Rfc3161.TimeStampReq),
   ("rfc3161.TimeStampToken", Rfc3161.TimeStampToken),
   ("rfc3161.TimeStampResp__0", Rfc3161.TimeStampResp__0),
   ("rfc3161.TimeStampResp", Rfc3161.TimeStampResp)]

def Rfc3161.fills : List (String × Py.Proto) :=
  []

def Rfc3274.steps : List (String × Py.Obj) :=
  [("rfc3274.CompressionAlgorithmIdentifier", Rfc3274.CompressionAlgorithmIdentifier),
   ("rfc3274.id_ct_compressedData", Rfc3274.id_ct_compressedData),
   ("rfc3274.CompressedData__0", Rfc3274.CompressedData__0),
   ("rfc3274.CompressedData", Rfc3274.CompressedData),
   ("rfc3274.id_alg_zlibCompress", Rfc3274.id_alg_zlibCompress)]

def Rfc3274.fills : List (String × Py.Proto) :=
  [("rfc3274.cpa_zlibCompress__0", Rfc3274.cpa_zlibCompress__0),
   ("rfc3274.cpa_zlibCompress", Rfc3274.cpa_zlibCompress)]

def Rfc3279.steps : List (String × Py.Obj) :=
  [("rfc3279.md2", Rfc3279.md2),
   ("rfc3279.md5", Rfc3279.md5),
   ("rfc3279.id_sha1", Rfc3279.id_sha1),
   ("rfc3279.id_dsa", Rfc3279.id_dsa),
   ("rfc3279.DSAPublicKey", Rfc3279.DSAPublicKey),
   ("rfc3279.Dss_Parms", Rfc3279.Dss_Parms),
   ("rfc3279.id_dsa_with_sha1", Rfc3279.id_dsa_with_sha1),
   ("rfc3279.Dss_Sig_Value", Rfc3279.Dss_Sig_Value),
   ("rfc3279.pkcs_1", Rfc3279.pkcs_1),
   ("rfc3279.rsaEncryption", Rfc3279.rsaEncryption),
   ("rfc3279.md2WithRSAEncryption", Rfc3279.md2WithRSAEncryption),
   ("rfc3279.md5WithRSAEncryption", Rfc3279.md5WithRSAEncryption),
   ("rfc3279.sha1WithRSAEncryption", Rfc3279.sha1WithRSAEncryption),
   ("rfc3279.RSAPublicKey", Rfc3279.RSAPublicKey),
   ("rfc3279.dhpublicnumber", Rfc3279.dhpublicnumber),
   ("rfc3279.DHPublicKey", Rfc3279.DHPublicKey),
   ("rfc3279.ValidationParms", Rfc3279.ValidationParms),
   ("rfc3279.DomainParameters", Rfc3279.DomainParameters),
   ("rfc3279.id_keyExchangeAlgorithm", Rfc3279.id_keyExchangeAlgorithm),
   ("rfc3279.KEA_Parms_Id", Rfc3279.KEA_Parms_Id),
   ("rfc3279.ansi_X9_62", Rfc3279.ansi_X9_62),
   ("rfc3279.FieldID", Rfc3279.FieldID),
   ("rfc3279.id_ecSigType", Rfc3279.id_ecSigType),
   ("rfc3279.ecdsa_with_SHA1", Rfc3279.ecdsa_with_SHA1),
   ("rfc3279.ECDSA_Sig_Value", Rfc3279.ECDSA_Sig_Value),
   ("rfc3279.id_fieldType", Rfc3279.id_fieldType),
   ("rfc3279.prime_field", Rfc3279.prime_field),
   ("rfc3279.Prime_p", Rfc3279.Prime_p),
   ("rfc3279.characteristic_two_field", Rfc3279.characteristic_two_field),
   ("rfc3279.Characteristic_two", Rfc3279.Characteristic_two),
   ("rfc3279.id_characteristic_two_basis", Rfc3279.id_characteristic_two_basis),
   ("rfc3279.gnBasis", Rfc3279.gnBasis),
   ("rfc3279.tpBasis", Rfc3279.tpBasis),
   ("rfc3279.Trinomial", Rfc3279.Trinomial),
   ("rfc3279.ppBasis", Rfc3279.ppBasis),
   ("rfc3279.Pentanomial", Rfc3279.Pentanomial),
   ("rfc3279.FieldElement", Rfc3279.FieldElement),
   ("rfc3279.ECPoint", Rfc3279.ECPoint),
   ("rfc3279.Curve", Rfc3279.Curve),
   ("rfc3279.ECPVer", Rfc3279.ECPVer),
   ("rfc3279.ECParameters", Rfc3279.ECParameters),
   ("rfc3279.EcpkParameters", Rfc3279.EcpkParameters),
   ("rfc3279.id_publicKeyType", Rfc3279.id_publicKeyType),
   ("rfc3279.id_ecPublicKey", Rfc3279.id_ecPublicKey),
   ("rfc3279.ellipticCurve", Rfc3279.ellipticCurve),
   ("rfc3279.c_TwoCurve", Rfc3279.c_TwoCurve),
   ("rfc3279.c2pnb163v1", Rfc3279.c2pnb163v1),
   ("rfc3279.c2pnb163v2", Rfc3279.c2pnb163v2),
   ("rfc3279.c2pnb163v3", Rfc3279.c2pnb163v3),
   ("rfc3279.c2pnb176w1", Rfc3279.c2pnb176w1),
   ("rfc3279.c2tnb191v1", Rfc3279.c2tnb191v1),
   ("rfc3279.c2tnb191v2", Rfc3279.c2tnb191v2),
   ("rfc3279.c2tnb191v3", Rfc3279.c2tnb191v3),
   ("rfc3279.c2onb191v4", Rfc3279.c2onb191v4),
   ("rfc3279.c2onb191v5", Rfc3279.c2onb191v5),
   ("rfc3279.c2pnb208w1", Rfc3279.c2pnb208w1),
   ("rfc3279.c2tnb239v1", Rfc3279.c2tnb239v1),
   ("rfc3279.c2tnb239v2", Rfc3279.c2tnb239v2),
   ("rfc3279.c2tnb239v3", Rfc3279.c2tnb239v3),
   ("rfc3279.c2onb239v4", Rfc3279.c2onb239v4),
   ("rfc3279.c2onb239v5", Rfc3279.c2onb239v5),
   ("rfc3279.c2pnb272w1", Rfc3279.c2pnb272w1),
   ("rfc3279.c2pnb304w1", Rfc3279.c2pnb304w1),
   ("rfc3279.c2tnb359v1", Rfc3279.c2tnb359v1),
   ("rfc3279.c2pnb368w1", Rfc3279.c2pnb368w1),
   ("rfc3279.c2tnb431r1", Rfc3279.c2tnb431r1),
   ("rfc3279.primeCurve", Rfc3279.primeCurve),
   ("rfc3279.prime192v1", Rfc3279.prime192v1),
   ("rfc3279.prime192v2", Rfc3279.prime192v2),
   ("rfc3279.prime192v3", Rfc3279.prime192v3),
   ("rfc3279.prime239v1", Rfc3279.prime239v1),
   ("rfc3279.prime239v2", Rfc3279.prime239v2),
   ("rfc3279.prime239v3", Rfc3279.prime239v3),
   ("rfc3279.prime256v1", Rfc3279.prime256v1)]

def Rfc3279.fills : List (String × Py.Proto) :=
  []

def Rfc3280.steps : List (String × Py.Obj) :=
  [("rfc3280.unformatted_postal_address", Rfc3280.unformatted_postal_address),
   ("rfc3280.ub_organizational_units", Rfc3280.ub_organizational_units),
   ("rfc3280.ub_organizational_unit_name_length", Rfc3280.ub_organizational_unit_name_length),
   ("rfc3280.OrganizationalUnitName__0", Rfc3280.OrganizationalUnitName__0),
   ("rfc3280.OrganizationalUnitName", Rfc3280.OrganizationalUnitName),
   ("rfc3280.OrganizationalUnitNames__0", Rfc3280.OrganizationalUnitNames__0),
   ("rfc3280.OrganizationalUnitNames__1", Rfc3280.OrganizationalUnitNames__1),
   ("rfc3280.OrganizationalUnitNames", Rfc3280.OrganizationalUnitNames),
   ("rfc3280.AttributeType", Rfc3280.AttributeType),
   ("rfc3280.id_at", Rfc3280.id_at),
   ("rfc3280.id_at_name", Rfc3280.id_at_name),
   ("rfc3280.ub_pds_parameter_length", Rfc3280.ub_pds_parameter_length),
   ("rfc3280.PDSParameter__0", Rfc3280.PDSParameter__0),
   ("rfc3280.PDSParameter", Rfc3280.PDSParameter),
   ("rfc3280.PhysicalDeliveryOrganizationName", Rfc3280.PhysicalDeliveryOrganizationName),
   ("rfc3280.ub_organization_name_length", Rfc3280.ub_organization_name_length),
   ("rfc3280.ub_domain_defined_attribute_type_length", Rfc3280.ub_domain_defined_attribute_type_length),
   ("rfc3280.ub_domain_defined_attribute_value_length", Rfc3280.ub_domain_defined_attribute_value_length),
   ("rfc3280.TeletexDomainDefinedAttribute__0", Rfc3280.TeletexDomainDefinedAttribute__0),
   ("rfc3280.TeletexDomainDefinedAttribute", Rfc3280.TeletexDomainDefinedAttribute),
   ("rfc3280.id_pkix", Rfc3280.id_pkix),
   ("rfc3280.id_qt", Rfc3280.id_qt),
   ("rfc3280.PresentationAddress__0", Rfc3280.PresentationAddress__0),
   ("rfc3280.PresentationAddress", Rfc3280.PresentationAddress),
   ("rfc3280.AlgorithmIdentifier__0", Rfc3280.AlgorithmIdentifier__0),
   ("rfc3280.AlgorithmIdentifier", Rfc3280.AlgorithmIdentifier),
   ("rfc3280.UniqueIdentifier", Rfc3280.UniqueIdentifier),
   ("rfc3280.Extension__0", Rfc3280.Extension__0),
   ("rfc3280.Extension", Rfc3280.Extension),
   ("rfc3280.Extensions__0", Rfc3280.Extensions__0),
   ("rfc3280.Extensions__1", Rfc3280.Extensions__1),
   ("rfc3280.Extensions", Rfc3280.Extensions),
   ("rfc3280.CertificateSerialNumber", Rfc3280.CertificateSerialNumber),
   ("rfc3280.SubjectPublicKeyInfo__0", Rfc3280.SubjectPublicKeyInfo__0),
   ("rfc3280.SubjectPublicKeyInfo", Rfc3280.SubjectPublicKeyInfo),
   ("rfc3280.Time__0", Rfc3280.Time__0),
   ("rfc3280.Time", Rfc3280.Time),
   ("rfc3280.Validity__0", Rfc3280.Validity__0),
   ("rfc3280.Validity", Rfc3280.Validity),
   ("rfc3280.Version__0", Rfc3280.Version__0),
   ("rfc3280.Version", Rfc3280.Version),
   ("rfc3280.AttributeValue", Rfc3280.AttributeValue),
   ("rfc3280.AttributeTypeAndValue__0", Rfc3280.AttributeTypeAndValue__0),
   ("rfc3280.AttributeTypeAndValue", Rfc3280.AttributeTypeAndValue),
   ("rfc3280.RelativeDistinguishedName__0", Rfc3280.RelativeDistinguishedName__0),
   ("rfc3280.RelativeDistinguishedName__1", Rfc3280.RelativeDistinguishedName__1),
   ("rfc3280.RelativeDistinguishedName", Rfc3280.RelativeDistinguishedName),
   ("rfc3280.RDNSequence__0", Rfc3280.RDNSequence__0),
   ("rfc3280.RDNSequence", Rfc3280.RDNSequence),
   ("rfc3280.Name__0", Rfc3280.Name__0),
   ("rfc3280.Name", Rfc3280.Name),
   ("rfc3280.TBSCertificate__0", Rfc3280.TBSCertificate__0),
   ("rfc3280.TBSCertificate", Rfc3280.TBSCertificate),
   ("rfc3280.Certificate__0", Rfc3280.Certificate__0),
   ("rfc3280.Certificate", Rfc3280.Certificate),
   ("rfc3280.ub_surname_length", Rfc3280.ub_surname_length),
   ("rfc3280.TeletexOrganizationName__0", Rfc3280.TeletexOrganizationName__0),
   ("rfc3280.TeletexOrganizationName", Rfc3280.TeletexOrganizationName),
   ("rfc3280.ub_e163_4_sub_address_length", Rfc3280.ub_e163_4_sub_address_length),
   ("rfc3280.teletex_common_name", Rfc3280.teletex_common_name),
   ("rfc3280.ub_country_name_alpha_length", Rfc3280.ub_country_name_alpha_length),
   ("rfc3280.ub_country_name_numeric_length", Rfc3280.ub_country_name_numeric_length),
   ("rfc3280.CountryName__0", Rfc3280.CountryName__0),
   ("rfc3280.CountryName__1", Rfc3280.CountryName__1),
   ("rfc3280.CountryName", Rfc3280.CountryName),
   ("rfc3280.extension_OR_address_components", Rfc3280.extension_OR_address_components),
   ("rfc3280.id_at_dnQualifier", Rfc3280.id_at_dnQualifier),
   ("rfc3280.ub_e163_4_number_length", Rfc3280.ub_e163_4_number_length),
   ("rfc3280.ExtendedNetworkAddress__0", Rfc3280.ExtendedNetworkAddress__0),
   ("rfc3280.ExtendedNetworkAddress", Rfc3280.ExtendedNetworkAddress),
   ("rfc3280.terminal_type", Rfc3280.terminal_type),
   ("rfc3280.id_domainComponent", Rfc3280.id_domainComponent),
   ("rfc3280.ub_state_name", Rfc3280.ub_state_name),
   ("rfc3280.X520StateOrProvinceName__0", Rfc3280.X520StateOrProvinceName__0),
   ("rfc3280.X520StateOrProvinceName", Rfc3280.X520StateOrProvinceName),
   ("rfc3280.ub_organization_name", Rfc3280.ub_organization_name),
   ("rfc3280.X520OrganizationName__0", Rfc3280.X520OrganizationName__0),
   ("rfc3280.X520OrganizationName", Rfc3280.X520OrganizationName),
   ("rfc3280.ub_emailaddress_length", Rfc3280.ub_emailaddress_length),
   ("rfc3280.ExtensionPhysicalDeliveryAddressComponents", Rfc3280.ExtensionPhysicalDeliveryAddressComponents),
   ("rfc3280.id_at_surname", Rfc3280.id_at_surname),
   ("rfc3280.ub_common_name_length", Rfc3280.ub_common_name_length),
   ("rfc3280.id_ad", Rfc3280.id_ad),
   ("rfc3280.ub_numeric_user_id_length", Rfc3280.ub_numeric_user_id_length),
   ("rfc3280.NumericUserIdentifier__0", Rfc3280.NumericUserIdentifier__0),
   ("rfc3280.NumericUserIdentifier", Rfc3280.NumericUserIdentifier),
   ("rfc3280.OrganizationName__0", Rfc3280.OrganizationName__0),
   ("rfc3280.OrganizationName", Rfc3280.OrganizationName),
   ("rfc3280.ub_domain_name_length", Rfc3280.ub_domain_name_length),
   ("rfc3280.AdministrationDomainName__0", Rfc3280.AdministrationDomainName__0),
   ("rfc3280.AdministrationDomainName__1", Rfc3280.AdministrationDomainName__1),
   ("rfc3280.AdministrationDomainName", Rfc3280.AdministrationDomainName),
   ("rfc3280.PrivateDomainName__0", Rfc3280.PrivateDomainName__0),
   ("rfc3280.PrivateDomainName", Rfc3280.PrivateDomainName),
   ("rfc3280.ub_generation_qualifier_length", Rfc3280.ub_generation_qualifier_length),
   ("rfc3280.ub_given_name_length", Rfc3280.ub_given_name_length),
   ("rfc3280.ub_initials_length", Rfc3280.ub_initials_length),
   ("rfc3280.PersonalName__0", Rfc3280.PersonalName__0),
   ("rfc3280.PersonalName", Rfc3280.PersonalName),
   ("rfc3280.ub_terminal_id_length", Rfc3280.ub_terminal_id_length),
   ("rfc3280.TerminalIdentifier__0", Rfc3280.TerminalIdentifier__0),
   ("rfc3280.TerminalIdentifier", Rfc3280.TerminalIdentifier),
   ("rfc3280.ub_x121_address_length", Rfc3280.ub_x121_address_length),
   ("rfc3280.X121Address__0", Rfc3280.X121Address__0),
   ("rfc3280.X121Address", Rfc3280.X121Address),
   ("rfc3280.NetworkAddress", Rfc3280.NetworkAddress),
   ("rfc3280.BuiltInStandardAttributes__0", Rfc3280.BuiltInStandardAttributes__0),
   ("rfc3280.BuiltInStandardAttributes", Rfc3280.BuiltInStandardAttributes),
   ("rfc3280.ub_domain_defined_attributes", Rfc3280.ub_domain_defined_attributes),
   ("rfc3280.BuiltInDomainDefinedAttribute__0", Rfc3280.BuiltInDomainDefinedAttribute__0),
   ("rfc3280.BuiltInDomainDefinedAttribute", Rfc3280.BuiltInDomainDefinedAttribute),
   ("rfc3280.BuiltInDomainDefinedAttributes__0", Rfc3280.BuiltInDomainDefinedAttributes__0),
   ("rfc3280.BuiltInDomainDefinedAttributes__1", Rfc3280.BuiltInDomainDefinedAttributes__1),
   ("rfc3280.BuiltInDomainDefinedAttributes", Rfc3280.BuiltInDomainDefinedAttributes),
   ("rfc3280.ub_extension_attributes", Rfc3280.ub_extension_attributes),
   ("rfc3280.ExtensionAttribute__0", Rfc3280.ExtensionAttribute__0),
   ("rfc3280.ExtensionAttribute", Rfc3280.ExtensionAttribute),
   ("rfc3280.ExtensionAttributes__0", Rfc3280.ExtensionAttributes__0),
   ("rfc3280.ExtensionAttributes__1", Rfc3280.ExtensionAttributes__1),
   ("rfc3280.ExtensionAttributes", Rfc3280.ExtensionAttributes),
   ("rfc3280.ORAddress__0", Rfc3280.ORAddress__0),
   ("rfc3280.ORAddress", Rfc3280.ORAddress),
   ("rfc3280.id_pe", Rfc3280.id_pe),
   ("rfc3280.ub_title", Rfc3280.ub_title),
   ("rfc3280.X520Title__0", Rfc3280.X520Title__0),
   ("rfc3280.X520Title", Rfc3280.X520Title),
   ("rfc3280.id_at_organizationalUnitName", Rfc3280.id_at_organizationalUnitName),
   ("rfc3280.EmailAddress__0", Rfc3280.EmailAddress__0),
   ("rfc3280.EmailAddress", Rfc3280.EmailAddress),
   ("rfc3280.physical_delivery_country_name", Rfc3280.physical_delivery_country_name),
   ("rfc3280.id_at_givenName", Rfc3280.id_at_givenName),
   ("rfc3280.TeletexCommonName__0", Rfc3280.TeletexCommonName__0),
   ("rfc3280.TeletexCommonName", Rfc3280.TeletexCommonName),
   ("rfc3280.id_qt_cps", Rfc3280.id_qt_cps),
   ("rfc3280.LocalPostalAttributes", Rfc3280.LocalPostalAttributes),
   ("rfc3280.StreetAddress", Rfc3280.StreetAddress),
   ("rfc3280.id_kp", Rfc3280.id_kp),
   ("rfc3280.DirectoryString__0", Rfc3280.DirectoryString__0),
   ("rfc3280.DirectoryString__1", Rfc3280.DirectoryString__1),
   ("rfc3280.DomainComponent", Rfc3280.DomainComponent),
   ("rfc3280.id_at_initials", Rfc3280.id_at_initials),
   ("rfc3280.id_qt_unotice", Rfc3280.id_qt_unotice),
   ("rfc3280.ub_pds_name_length", Rfc3280.ub_pds_name_length),
   ("rfc3280.PDSName__0", Rfc3280.PDSName__0),
   ("rfc3280.PDSName", Rfc3280.PDSName),
   ("rfc3280.PosteRestanteAddress", Rfc3280.PosteRestanteAddress),
   ("rfc3280.DistinguishedName", Rfc3280.DistinguishedName),
   ("rfc3280.CommonName__0", Rfc3280.CommonName__0),
   ("rfc3280.CommonName", Rfc3280.CommonName),
   ("rfc3280.ub_serial_number", Rfc3280.ub_serial_number),
   ("rfc3280.X520SerialNumber__0", Rfc3280.X520SerialNumber__0),
   ("rfc3280.X520SerialNumber", Rfc3280.X520SerialNumber),
   ("rfc3280.id_at_generationQualifier", Rfc3280.id_at_generationQualifier),
   ("rfc3280.ub_organizational_unit_name", Rfc3280.ub_organizational_unit_name),
   ("rfc3280.id_ad_ocsp", Rfc3280.id_ad_ocsp),
   ("rfc3280.TeletexOrganizationalUnitName__0", Rfc3280.TeletexOrganizationalUnitName__0),
   ("rfc3280.TeletexOrganizationalUnitName", Rfc3280.TeletexOrganizationalUnitName),
   ("rfc3280.TeletexPersonalName__0", Rfc3280.TeletexPersonalName__0),
   ("rfc3280.TeletexPersonalName", Rfc3280.TeletexPersonalName),
   ("rfc3280.TeletexDomainDefinedAttributes__0", Rfc3280.TeletexDomainDefinedAttributes__0),
   ("rfc3280.TeletexDomainDefinedAttributes__1", Rfc3280.TeletexDomainDefinedAttributes__1),
   ("rfc3280.TeletexDomainDefinedAttributes", Rfc3280.TeletexDomainDefinedAttributes),
   ("rfc3280.TBSCertList__0", Rfc3280.TBSCertList__0),
   ("rfc3280.TBSCertList", Rfc3280.TBSCertList),
   ("rfc3280.local_postal_attributes", Rfc3280.local_postal_attributes),
   ("rfc3280.pkcs_9", Rfc3280.pkcs_9),
   ("rfc3280.PhysicalDeliveryCountryName__0", Rfc3280.PhysicalDeliveryCountryName__0),
   ("rfc3280.PhysicalDeliveryCountryName", Rfc3280.PhysicalDeliveryCountryName),
   ("rfc3280.ub_name", Rfc3280.ub_name),
   ("rfc3280.X520name__0", Rfc3280.X520name__0),
   ("rfc3280.X520name", Rfc3280.X520name),
   ("rfc3280.id_emailAddress", Rfc3280.id_emailAddress),
   ("rfc3280.TerminalType__0", Rfc3280.TerminalType__0),
   ("rfc3280.TerminalType", Rfc3280.TerminalType),
   ("rfc3280.X520OrganizationalUnitName__0", Rfc3280.X520OrganizationalUnitName__0),
   ("rfc3280.X520OrganizationalUnitName", Rfc3280.X520OrganizationalUnitName),
   ("rfc3280.id_at_commonName", Rfc3280.id_at_commonName),
   ("rfc3280.pds_name", Rfc3280.pds_name),
   ("rfc3280.post_office_box_address", Rfc3280.post_office_box_address),
   ("rfc3280.ub_locality_name", Rfc3280.ub_locality_name),
   ("rfc3280.X520LocalityName__0", Rfc3280.X520LocalityName__0),
   ("rfc3280.X520LocalityName", Rfc3280.X520LocalityName),
   ("rfc3280.id_ad_timeStamping", Rfc3280.id_ad_timeStamping),
   ("rfc3280.id_at_countryName", Rfc3280.id_at_countryName),
   ("rfc3280.physical_delivery_personal_name", Rfc3280.physical_delivery_personal_name),
   ("rfc3280.teletex_personal_name", Rfc3280.teletex_personal_name),
   ("rfc3280.teletex_organizational_unit_names", Rfc3280.teletex_organizational_unit_names),
   ("rfc3280.PhysicalDeliveryPersonalName", Rfc3280.PhysicalDeliveryPersonalName),
   ("rfc3280.ub_postal_code_length", Rfc3280.ub_postal_code_length),
   ("rfc3280.PostalCode__0", Rfc3280.PostalCode__0),
   ("rfc3280.PostalCode", Rfc3280.PostalCode),
   ("rfc3280.X520countryName__0", Rfc3280.X520countryName__0),
   ("rfc3280.X520countryName", Rfc3280.X520countryName),
   ("rfc3280.postal_code", Rfc3280.postal_code),
   ("rfc3280.id_ad_caRepository", Rfc3280.id_ad_caRepository),
   ("rfc3280.extension_physical_delivery_address_components", Rfc3280.extension_physical_delivery_address_components),
   ("rfc3280.PostOfficeBoxAddress", Rfc3280.PostOfficeBoxAddress),
   ("rfc3280.PhysicalDeliveryOfficeName", Rfc3280.PhysicalDeliveryOfficeName),
   ("rfc3280.id_at_title", Rfc3280.id_at_title),
   ("rfc3280.id_at_serialNumber", Rfc3280.id_at_serialNumber),
   ("rfc3280.id_ad_caIssuers", Rfc3280.id_ad_caIssuers),
   ("rfc3280.ub_integer_options", Rfc3280.ub_integer_options),
   ("rfc3280.CertificateList__0", Rfc3280.CertificateList__0),
   ("rfc3280.CertificateList", Rfc3280.CertificateList),
   ("rfc3280.PhysicalDeliveryOfficeNumber", Rfc3280.PhysicalDeliveryOfficeNumber),
   ("rfc3280.TeletexOrganizationalUnitNames__0", Rfc3280.TeletexOrganizationalUnitNames__0),
   ("rfc3280.TeletexOrganizationalUnitNames__1", Rfc3280.TeletexOrganizationalUnitNames__1),
   ("rfc3280.TeletexOrganizationalUnitNames", Rfc3280.TeletexOrganizationalUnitNames),
   ("rfc3280.physical_delivery_office_name", Rfc3280.physical_delivery_office_name),
   ("rfc3280.ub_common_name", Rfc3280.ub_common_name),
   ("rfc3280.ExtensionORAddressComponents", Rfc3280.ExtensionORAddressComponents),
   ("rfc3280.ub_pseudonym", Rfc3280.ub_pseudonym),
   ("rfc3280.poste_restante_address", Rfc3280.poste_restante_address),
   ("rfc3280.id_at_organizationName", Rfc3280.id_at_organizationName),
   ("rfc3280.physical_delivery_office_number", Rfc3280.physical_delivery_office_number),
   ("rfc3280.id_at_pseudonym", Rfc3280.id_at_pseudonym),
   ("rfc3280.X520CommonName__0", Rfc3280.X520CommonName__0),
   ("rfc3280.X520CommonName", Rfc3280.X520CommonName),
   ("rfc3280.physical_delivery_organization_name", Rfc3280.physical_delivery_organization_name),
   ("rfc3280.X520dnQualifier", Rfc3280.X520dnQualifier),
   ("rfc3280.id_at_stateOrProvinceName", Rfc3280.id_at_stateOrProvinceName),
   ("rfc3280.common_name", Rfc3280.common_name),
   ("rfc3280.id_at_localityName", Rfc3280.id_at_localityName),
   ("rfc3280.ub_match", Rfc3280.ub_match),
   ("rfc3280.ub_unformatted_address_length", Rfc3280.ub_unformatted_address_length),
   ("rfc3280.Attribute__0", Rfc3280.Attribute__0),
   ("rfc3280.Attribute", Rfc3280.Attribute),
   ("rfc3280.extended_network_address", Rfc3280.extended_network_address),
   ("rfc3280.unique_postal_name", Rfc3280.unique_postal_name),
   ("rfc3280.ub_pds_physical_address_lines", Rfc3280.ub_pds_physical_address_lines),
   ("rfc3280.UnformattedPostalAddress__0", Rfc3280.UnformattedPostalAddress__0),
   ("rfc3280.UnformattedPostalAddress", Rfc3280.UnformattedPostalAddress),
   ("rfc3280.UniquePostalName", Rfc3280.UniquePostalName),
   ("rfc3280.X520Pseudonym__0", Rfc3280.X520Pseudonym__0),
   ("rfc3280.X520Pseudonym", Rfc3280.X520Pseudonym),
   ("rfc3280.teletex_organization_name", Rfc3280.teletex_organization_name),
   ("rfc3280.teletex_domain_defined_attributes", Rfc3280.teletex_domain_defined_attributes),
   ("rfc3280.street_address", Rfc3280.street_address),
   ("rfc3280.id_kp_OCSPSigning", Rfc3280.id_kp_OCSPSigning),
   ("rfc3280.id_ce", Rfc3280.id_ce),
   ("rfc3280.id_ce_certificatePolicies", Rfc3280.id_ce_certificatePolicies),
   ("rfc3280.EDIPartyName__0", Rfc3280.EDIPartyName__0),
   ("rfc3280.EDIPartyName", Rfc3280.EDIPartyName),
   ("rfc3280.AnotherName__0", Rfc3280.AnotherName__0),
   ("rfc3280.AnotherName", Rfc3280.AnotherName),
   ("rfc3280.GeneralName__0", Rfc3280.GeneralName__0),
   ("rfc3280.GeneralName", Rfc3280.GeneralName),
   ("rfc3280.GeneralNames__0", Rfc3280.GeneralNames__0),
   ("rfc3280.GeneralNames__1", Rfc3280.GeneralNames__1),
   ("rfc3280.GeneralNames", Rfc3280.GeneralNames),
   ("rfc3280.IssuerAltName", Rfc3280.IssuerAltName),
   ("rfc3280.id_ce_cRLDistributionPoints", Rfc3280.id_ce_cRLDistributionPoints),
   ("rfc3280.CertPolicyId", Rfc3280.CertPolicyId),
   ("rfc3280.PolicyMappings__0", Rfc3280.PolicyMappings__0),
   ("rfc3280.PolicyMappings__1", Rfc3280.PolicyMappings__1),
   ("rfc3280.PolicyMappings", Rfc3280.PolicyMappings),
   ("rfc3280.PolicyQualifierId", Rfc3280.PolicyQualifierId),
   ("rfc3280.holdInstruction", Rfc3280.holdInstruction),
   ("rfc3280.id_ce_subjectDirectoryAttributes", Rfc3280.id_ce_subjectDirectoryAttributes),
   ("rfc3280.id_holdinstruction_callissuer", Rfc3280.id_holdinstruction_callissuer),
   ("rfc3280.SubjectDirectoryAttributes__0", Rfc3280.SubjectDirectoryAttributes__0),
   ("rfc3280.SubjectDirectoryAttributes__1", Rfc3280.SubjectDirectoryAttributes__1),
   ("rfc3280.SubjectDirectoryAttributes", Rfc3280.SubjectDirectoryAttributes),
   ("rfc3280.anyPolicy", Rfc3280.anyPolicy),
   ("rfc3280.id_ce_subjectAltName", Rfc3280.id_ce_subjectAltName),
   ("rfc3280.id_kp_emailProtection", Rfc3280.id_kp_emailProtection),
   ("rfc3280.ReasonFlags__0", Rfc3280.ReasonFlags__0),
   ("rfc3280.ReasonFlags", Rfc3280.ReasonFlags),
   ("rfc3280.DistributionPointName__0", Rfc3280.DistributionPointName__0),
   ("rfc3280.DistributionPointName", Rfc3280.DistributionPointName),
   ("rfc3280.DistributionPoint__0", Rfc3280.DistributionPoint__0),
   ("rfc3280.DistributionPoint", Rfc3280.DistributionPoint),
   ("rfc3280.id_ce_keyUsage", Rfc3280.id_ce_keyUsage),
   ("rfc3280.PolicyQualifierInfo__0", Rfc3280.PolicyQualifierInfo__0),
   ("rfc3280.PolicyQualifierInfo", Rfc3280.PolicyQualifierInfo),
   ("rfc3280.PolicyInformation__0", Rfc3280.PolicyInformation__0),
   ("rfc3280.PolicyInformation", Rfc3280.PolicyInformation),
   ("rfc3280.CertificatePolicies__0", Rfc3280.CertificatePolicies__0),
   ("rfc3280.CertificatePolicies__1", Rfc3280.CertificatePolicies__1),
   ("rfc3280.CertificatePolicies", Rfc3280.CertificatePolicies),
   ("rfc3280.id_ce_basicConstraints", Rfc3280.id_ce_basicConstraints),
   ("rfc3280.HoldInstructionCode", Rfc3280.HoldInstructionCode),
   ("rfc3280.KeyPurposeId", Rfc3280.KeyPurposeId),
   ("rfc3280.ExtKeyUsageSyntax__0", Rfc3280.ExtKeyUsageSyntax__0),
   ("rfc3280.ExtKeyUsageSyntax__1", Rfc3280.ExtKeyUsageSyntax__1),
   ("rfc3280.ExtKeyUsageSyntax", Rfc3280.ExtKeyUsageSyntax),
   ("rfc3280.SubjectAltName", Rfc3280.SubjectAltName),
   ("rfc3280.BasicConstraints__0", Rfc3280.BasicConstraints__0),
   ("rfc3280.BasicConstraints", Rfc3280.BasicConstraints),
   ("rfc3280.SkipCerts__0", Rfc3280.SkipCerts__0),
   ("rfc3280.SkipCerts", Rfc3280.SkipCerts),
   ("rfc3280.InhibitAnyPolicy", Rfc3280.InhibitAnyPolicy),
   ("rfc3280.CRLNumber__0", Rfc3280.CRLNumber__0),
   ("rfc3280.CRLNumber", Rfc3280.CRLNumber),
   ("rfc3280.BaseCRLNumber", Rfc3280.BaseCRLNumber),
   ("rfc3280.KeyIdentifier", Rfc3280.KeyIdentifier),
   ("rfc3280.AuthorityKeyIdentifier__0", Rfc3280.AuthorityKeyIdentifier__0),
   ("rfc3280.AuthorityKeyIdentifier", Rfc3280.AuthorityKeyIdentifier),
   ("rfc3280.id_ce_nameConstraints", Rfc3280.id_ce_nameConstraints),
   ("rfc3280.id_kp_serverAuth", Rfc3280.id_kp_serverAuth),
   ("rfc3280.id_ce_freshestCRL", Rfc3280.id_ce_freshestCRL),
   ("rfc3280.id_ce_cRLReasons", Rfc3280.id_ce_cRLReasons),
   ("rfc3280.CRLDistributionPoints__0", Rfc3280.CRLDistributionPoints__0),
   ("rfc3280.CRLDistributionPoints__1", Rfc3280.CRLDistributionPoints__1),
   ("rfc3280.CRLDistributionPoints", Rfc3280.CRLDistributionPoints),
   ("rfc3280.FreshestCRL", Rfc3280.FreshestCRL),
   ("rfc3280.id_ce_inhibitAnyPolicy", Rfc3280.id_ce_inhibitAnyPolicy),
   ("rfc3280.CRLReason__0", Rfc3280.CRLReason__0),
   ("rfc3280.CRLReason", Rfc3280.CRLReason),
   ("rfc3280.BaseDistance__0", Rfc3280.BaseDistance__0),
   ("rfc3280.BaseDistance", Rfc3280.BaseDistance),
   ("rfc3280.GeneralSubtree__0", Rfc3280.GeneralSubtree__0),
   ("rfc3280.GeneralSubtree", Rfc3280.GeneralSubtree),
   ("rfc3280.GeneralSubtrees__0", Rfc3280.GeneralSubtrees__0),
   ("rfc3280.GeneralSubtrees__1", Rfc3280.GeneralSubtrees__1),
   ("rfc3280.GeneralSubtrees", Rfc3280.GeneralSubtrees),
   ("rfc3280.NameConstraints__0", Rfc3280.NameConstraints__0),
   ("rfc3280.NameConstraints", Rfc3280.NameConstraints),
   ("rfc3280.id_pe_authorityInfoAccess", Rfc3280.id_pe_authorityInfoAccess),
   ("rfc3280.id_pe_subjectInfoAccess", Rfc3280.id_pe_subjectInfoAccess),
   ("rfc3280.id_ce_certificateIssuer", Rfc3280.id_ce_certificateIssuer),
   ("rfc3280.id_ce_invalidityDate", Rfc3280.id_ce_invalidityDate),
   ("rfc3280.DirectoryString__2", Rfc3280.DirectoryString__2),
   ("rfc3280.DirectoryString", Rfc3280.DirectoryString),
   ("rfc3280.id_ce_authorityKeyIdentifier", Rfc3280.id_ce_authorityKeyIdentifier),
   ("rfc3280.AccessDescription__0", Rfc3280.AccessDescription__0),
   ("rfc3280.AccessDescription", Rfc3280.AccessDescription),
   ("rfc3280.AuthorityInfoAccessSyntax__0", Rfc3280.AuthorityInfoAccessSyntax__0),
   ("rfc3280.AuthorityInfoAccessSyntax__1", Rfc3280.AuthorityInfoAccessSyntax__1),
   ("rfc3280.AuthorityInfoAccessSyntax", Rfc3280.AuthorityInfoAccessSyntax),
   ("rfc3280.id_ce_issuingDistributionPoint", Rfc3280.id_ce_issuingDistributionPoint),
   ("rfc3280.CPSuri", Rfc3280.CPSuri),
   ("rfc3280.DisplayText__0", Rfc3280.DisplayText__0),
   ("rfc3280.DisplayText", Rfc3280.DisplayText),
   ("rfc3280.NoticeReference__0", Rfc3280.NoticeReference__0),
   ("rfc3280.NoticeReference", Rfc3280.NoticeReference),
   ("rfc3280.UserNotice__0", Rfc3280.UserNotice__0),
   ("rfc3280.UserNotice", Rfc3280.UserNotice),
   ("rfc3280.PrivateKeyUsagePeriod__0", Rfc3280.PrivateKeyUsagePeriod__0),
   ("rfc3280.PrivateKeyUsagePeriod", Rfc3280.PrivateKeyUsagePeriod),
   ("rfc3280.id_ce_subjectKeyIdentifier", Rfc3280.id_ce_subjectKeyIdentifier),
   ("rfc3280.CertificateIssuer", Rfc3280.CertificateIssuer),
   ("rfc3280.InvalidityDate", Rfc3280.InvalidityDate),
   ("rfc3280.SubjectInfoAccessSyntax__0", Rfc3280.SubjectInfoAccessSyntax__0),
   ("rfc3280.SubjectInfoAccessSyntax__1", Rfc3280.SubjectInfoAccessSyntax__1),
   ("rfc3280.SubjectInfoAccessSyntax", Rfc3280.SubjectInfoAccessSyntax),
   ("rfc3280.KeyUsage__0", Rfc3280.KeyUsage__0),
   ("rfc3280.KeyUsage", Rfc3280.KeyUsage),
   ("rfc3280.id_ce_extKeyUsage", Rfc3280.id_ce_extKeyUsage),
   ("rfc3280.anyExtendedKeyUsage", Rfc3280.anyExtendedKeyUsage),
   ("rfc3280.id_ce_privateKeyUsagePeriod", Rfc3280.id_ce_privateKeyUsagePeriod),
   ("rfc3280.id_ce_policyMappings", Rfc3280.id_ce_policyMappings),
   ("rfc3280.id_ce_cRLNumber", Rfc3280.id_ce_cRLNumber),
   ("rfc3280.id_ce_policyConstraints", Rfc3280.id_ce_policyConstraints),
   ("rfc3280.id_holdinstruction_none", Rfc3280.id_holdinstruction_none),
   ("rfc3280.id_holdinstruction_reject", Rfc3280.id_holdinstruction_reject),
   ("rfc3280.id_kp_timeStamping", Rfc3280.id_kp_timeStamping),
   ("rfc3280.PolicyConstraints__0", Rfc3280.PolicyConstraints__0),
   ("rfc3280.PolicyConstraints", Rfc3280.PolicyConstraints),
   ("rfc3280.SubjectKeyIdentifier", Rfc3280.SubjectKeyIdentifier),
   ("rfc3280.id_kp_clientAuth", Rfc3280.id_kp_clientAuth),
   ("rfc3280.id_ce_deltaCRLIndicator", Rfc3280.id_ce_deltaCRLIndicator),
   ("rfc3280.id_ce_issuerAltName", Rfc3280.id_ce_issuerAltName),
   ("rfc3280.id_kp_codeSigning", Rfc3280.id_kp_codeSigning),
   ("rfc3280.id_ce_holdInstructionCode", Rfc3280.id_ce_holdInstructionCode),
   ("rfc3280.IssuingDistributionPoint__0", Rfc3280.IssuingDistributionPoint__0),
   ("rfc3280.IssuingDistributionPoint", Rfc3280.IssuingDistributionPoint)]

def Rfc3280.fills : List (String × Py.Proto) :=
  []

def Rfc3281.steps : List (String × Py.Obj) :=
  [("rfc3281.ObjectDigestInfo__0", Rfc3281.ObjectDigestInfo__0),
   ("rfc3281.ObjectDigestInfo", Rfc3281.ObjectDigestInfo),
   ("rfc3281.IssuerSerial__0", Rfc3281.IssuerSerial__0),
   ("rfc3281.IssuerSerial", Rfc3281.IssuerSerial),
   ("rfc3281.TargetCert__0", Rfc3281.TargetCert__0),
   ("rfc3281.TargetCert", Rfc3281.TargetCert),
   ("rfc3281.Target__0", Rfc3281.Target__0),
   ("rfc3281.Target", Rfc3281.Target),
   ("rfc3281.Targets__0", Rfc3281.Targets__0),
   ("rfc3281.Targets", Rfc3281.Targets),
   ("rfc3281.ProxyInfo__0", Rfc3281.ProxyInfo__0),
   ("rfc3281.ProxyInfo", Rfc3281.ProxyInfo),
   ("rfc3281.id_at_role", Rfc3281.id_at_role),
   ("rfc3281.id_pe_aaControls", Rfc3281.id_pe_aaControls),
   ("rfc3281.id_ce_targetInformation", Rfc3281.id_ce_targetInformation),
   ("rfc3281.id_pe_ac_auditIdentity", Rfc3281.id_pe_ac_auditIdentity),
   ("rfc3281.ClassList__0", Rfc3281.ClassList__0),
   ("rfc3281.ClassList", Rfc3281.ClassList),
   ("rfc3281.SecurityCategory__0", Rfc3281.SecurityCategory__0),
   ("rfc3281.SecurityCategory", Rfc3281.SecurityCategory),
   ("rfc3281.Clearance__0", Rfc3281.Clearance__0),
   ("rfc3281.Clearance", Rfc3281.Clearance),
   ("rfc3281.AttCertVersion__0", Rfc3281.AttCertVersion__0),
   ("rfc3281.AttCertVersion", Rfc3281.AttCertVersion),
   ("rfc3281.id_aca", Rfc3281.id_aca),
   ("rfc3281.id_at_clearance", Rfc3281.id_at_clearance),
   ("rfc3281.AttrSpec__0", Rfc3281.AttrSpec__0),
   ("rfc3281.AttrSpec", Rfc3281.AttrSpec),
   ("rfc3281.AAControls__0", Rfc3281.AAControls__0),
   ("rfc3281.AAControls", Rfc3281.AAControls),
   ("rfc3281.AttCertValidityPeriod__0", Rfc3281.AttCertValidityPeriod__0),
   ("rfc3281.AttCertValidityPeriod", Rfc3281.AttCertValidityPeriod),
   ("rfc3281.id_aca_authenticationInfo", Rfc3281.id_aca_authenticationInfo),
   ("rfc3281.V2Form__0", Rfc3281.V2Form__0),
   ("rfc3281.V2Form", Rfc3281.V2Form),
   ("rfc3281.AttCertIssuer__0", Rfc3281.AttCertIssuer__0),
   ("rfc3281.AttCertIssuer", Rfc3281.AttCertIssuer),
   ("rfc3281.Holder__0", Rfc3281.Holder__0),
   ("rfc3281.Holder", Rfc3281.Holder),
   ("rfc3281.AttributeCertificateInfo__0", Rfc3281.AttributeCertificateInfo__0),
   ("rfc3281.AttributeCertificateInfo", Rfc3281.AttributeCertificateInfo),
   ("rfc3281.AttributeCertificate__0", Rfc3281.AttributeCertificate__0),
   ("rfc3281.AttributeCertificate", Rfc3281.AttributeCertificate),
   ("rfc3281.id_mod", Rfc3281.id_mod),
   ("rfc3281.id_mod_attribute_cert", Rfc3281.id_mod_attribute_cert),
   ("rfc3281.id_aca_accessIdentity", Rfc3281.id_aca_accessIdentity),
   ("rfc3281.RoleSyntax__0", Rfc3281.RoleSyntax__0),
   ("rfc3281.RoleSyntax", Rfc3281.RoleSyntax),
   ("rfc3281.id_aca_chargingIdentity", Rfc3281.id_aca_chargingIdentity),
   ("rfc3281.ACClearAttrs__0", Rfc3281.ACClearAttrs__0),
   ("rfc3281.ACClearAttrs", Rfc3281.ACClearAttrs),
   ("rfc3281.id_aca_group", Rfc3281.id_aca_group),
   ("rfc3281.id_pe_ac_proxying", Rfc3281.id_pe_ac_proxying),
   ("rfc3281.SvceAuthInfo__0", Rfc3281.SvceAuthInfo__0),
   ("rfc3281.SvceAuthInfo", Rfc3281.SvceAuthInfo),
   ("rfc3281.IetfAttrSyntax__0", Rfc3281.IetfAttrSyntax__0),
   ("rfc3281.IetfAttrSyntax", Rfc3281.IetfAttrSyntax),
   ("rfc3281.id_aca_encAttrs", Rfc3281.id_aca_encAttrs)]

def Rfc3281.fills : List (String × Py.Proto) :=
  []

def Rfc3370.steps : List (String × Py.Obj) :=
  [("rfc3370.AlgorithmIdentifier", Rfc3370.AlgorithmIdentifier),
   ("rfc3370.dhpublicnumber", Rfc3370.dhpublicnumber),
   ("rfc3370.dh_public_number", Rfc3370.dh_public_number),
   ("rfc3370.DHPublicKey", Rfc3370.DHPublicKey),
   ("rfc3370.DomainParameters", Rfc3370.DomainParameters),
   ("rfc3370.DHDomainParameters", Rfc3370.DHDomainParameters),
   ("rfc3370.Dss_Parms", Rfc3370.Dss_Parms),
   ("rfc3370.Dss_Sig_Value", Rfc3370.Dss_Sig_Value),
   ("rfc3370.md5", Rfc3370.md5),
   ("rfc3370.md5WithRSAEncryption", Rfc3370.md5WithRSAEncryption),
   ("rfc3370.RSAPublicKey", Rfc3370.RSAPublicKey),
   ("rfc3370.rsaEncryption", Rfc3370.rsaEncryption),
   ("rfc3370.ValidationParms", Rfc3370.ValidationParms),
   ("rfc3370.id_dsa", Rfc3370.id_dsa),
   ("rfc3370.id_dsa_with_sha1", Rfc3370.id_dsa_with_sha1),
   ("rfc3370.id_sha1", Rfc3370.id_sha1),
   ("rfc3370.sha_1", Rfc3370.sha_1),
   ("rfc3370.sha1WithRSAEncryption", Rfc3370.sha1WithRSAEncryption),
   ("rfc3370.CBCParameter__0", Rfc3370.CBCParameter__0),
   ("rfc3370.CBCParameter", Rfc3370.CBCParameter),
   ("rfc3370.KeyWrapAlgorithm", Rfc3370.KeyWrapAlgorithm),
   ("rfc3370.id_alg_CMS3DESwrap", Rfc3370.id_alg_CMS3DESwrap),
   ("rfc3370.des_EDE3_CBC", Rfc3370.des_EDE3_CBC),
   ("rfc3370.des_ede3_cbc", Rfc3370.des_ede3_cbc),
   ("rfc3370.rc2CBC", Rfc3370.rc2CBC),
   ("rfc3370.rc2_cbc", Rfc3370.rc2_cbc),
   ("rfc3370.RC2_CBC_Parameter", Rfc3370.RC2_CBC_Parameter),
   ("rfc3370.RC2CBCParameter", Rfc3370.RC2CBCParameter),
   ("rfc3370.PBKDF2_params", Rfc3370.PBKDF2_params),
   ("rfc3370.id_PBKDF2", Rfc3370.id_PBKDF2),
   ("rfc3370.hMAC_SHA1", Rfc3370.hMAC_SHA1),
   ("rfc3370.id_alg_ESDH", Rfc3370.id_alg_ESDH),
   ("rfc3370.id_alg_SSDH", Rfc3370.id_alg_SSDH),
   ("rfc3370.id_alg_CMSRC2wrap", Rfc3370.id_alg_CMSRC2wrap),
   ("rfc3370.RC2ParameterVersion", Rfc3370.RC2ParameterVersion),
   ("rfc3370.RC2wrapParameter", Rfc3370.RC2wrapParameter),
   ("rfc3370.Dss_Pub_Key", Rfc3370.Dss_Pub_Key)]

def Rfc3370.fills : List (String × Py.Proto) :=
  []

def Rfc3412.steps : List (String × Py.Obj) :=
  [("rfc3412.ScopedPDU", Rfc3412.ScopedPDU),
   ("rfc3412.ScopedPduData", Rfc3412.ScopedPduData),
   ("rfc3412.HeaderData", Rfc3412.HeaderData),
   ("rfc3412.SNMPv3Message", Rfc3412.SNMPv3Message)]

def Rfc3412.fills : List (String × Py.Proto) :=
  []

def Rfc3414.steps : List (String × Py.Obj) :=
  [("rfc3414.UsmSecurityParameters", Rfc3414.UsmSecurityParameters)]

def Rfc3414.fills : List (String × Py.Proto) :=
  []

def Rfc3447.steps : List (String × Py.Obj) :=
  [("rfc3447.OtherPrimeInfo", Rfc3447.OtherPrimeInfo),
   ("rfc3447.OtherPrimeInfos", Rfc3447.OtherPrimeInfos),
   ("rfc3447.RSAPrivateKey", Rfc3447.RSAPrivateKey)]

def Rfc3447.fills : List (String × Py.Proto) :=
  []

def Rfc3537.steps : List (String × Py.Obj) :=
  [("rfc3537.id_alg_HMACwith3DESwrap", Rfc3537.id_alg_HMACwith3DESwrap),
   ("rfc3537.id_alg_HMACwithAESwrap", Rfc3537.id_alg_HMACwithAESwrap)]

def Rfc3537.fills : List (String × Py.Proto) :=
  []

def Rfc3560.steps : List (String × Py.Obj) :=
  [("rfc3560.id_sha1", Rfc3560.id_sha1),
   ("rfc3560.id_sha256", Rfc3560.id_sha256),
   ("rfc3560.id_sha384", Rfc3560.id_sha384),
   ("rfc3560.id_sha512", Rfc3560.id_sha512),
   ("rfc3560.id_mgf1", Rfc3560.id_mgf1),
   ("rfc3560.rsaEncryption", Rfc3560.rsaEncryption),
   ("rfc3560.id_RSAES_OAEP", Rfc3560.id_RSAES_OAEP),
   ("rfc3560.id_pSpecified", Rfc3560.id_pSpecified),
   ("rfc3560.RSAES_OAEP_params", Rfc3560.RSAES_OAEP_params),
   ("rfc3560.rSAES_OAEP_Default_Params", Rfc3560.rSAES_OAEP_Default_Params)]

def Rfc3560.fills : List (String × Py.Proto) :=
  [("rfc3560.sha1Identifier", Rfc3560.sha1Identifier),
   ("rfc3560.sha256Identifier", Rfc3560.sha256Identifier),
   ("rfc3560.sha384Identifier", Rfc3560.sha384Identifier),
   ("rfc3560.sha512Identifier", Rfc3560.sha512Identifier),
   ("rfc3560.mgf1SHA1Identifier", Rfc3560.mgf1SHA1Identifier),
   ("rfc3560.mgf1SHA256Identifier", Rfc3560.mgf1SHA256Identifier),
   ("rfc3560.mgf1SHA384Identifier", Rfc3560.mgf1SHA384Identifier),
   ("rfc3560.mgf1SHA512Identifier", Rfc3560.mgf1SHA512Identifier),
   ("rfc3560.pSpecifiedEmptyIdentifier", Rfc3560.pSpecifiedEmptyIdentifier),
   ("rfc3560.rSAES_OAEP_Default_Identifier", Rfc3560.rSAES_OAEP_Default_Identifier),
   ("rfc3560.rSAES_OAEP_SHA256_Params", Rfc3560.rSAES_OAEP_SHA256_Params),
   ("rfc3560.rSAES_OAEP_SHA256_Identifier", Rfc3560.rSAES_OAEP_SHA256_Identifier),
   ("rfc3560.rSAES_OAEP_SHA384_Params", Rfc3560.rSAES_OAEP_SHA384_Params),
   ("rfc3560.rSAES_OAEP_SHA384_Identifier", Rfc3560.rSAES_OAEP_SHA384_Identifier),
   ("rfc3560.rSAES_OAEP_SHA512_Params", Rfc3560.rSAES_OAEP_SHA512_Params),
   ("rfc3560.rSAES_OAEP_SHA512_Identifier", Rfc3560.rSAES_OAEP_SHA512_Identifier)]

def Rfc3565.steps : List (String × Py.Obj) :=
  [("rfc3565.AlgorithmIdentifier", Rfc3565.AlgorithmIdentifier),
   ("rfc3565.AES_IV__0", Rfc3565.AES_IV__0),
   ("rfc3565.AES_IV", Rfc3565.AES_IV),
   ("rfc3565.id_aes128_CBC", Rfc3565.id_aes128_CBC),
   ("rfc3565.id_aes192_CBC", Rfc3565.id_aes192_CBC),
   ("rfc3565.id_aes256_CBC", Rfc3565.id_aes256_CBC),
   ("rfc3565.id_aes128_wrap", Rfc3565.id_aes128_wrap),
   ("rfc3565.id_aes192_wrap", Rfc3565.id_aes192_wrap),
   ("rfc3565.id_aes256_wrap", Rfc3565.id_aes256_wrap)]

def Rfc3565.fills : List (String × Py.Proto) :=
  []

def Rfc3657.steps : List (String × Py.Obj) :=
  [("rfc3657.id_camellia128_cbc", Rfc3657.id_camellia128_cbc),
   ("rfc3657.id_camellia192_cbc", Rfc3657.id_camellia192_cbc),
   ("rfc3657.id_camellia256_cbc", Rfc3657.id_camellia256_cbc),
   ("rfc3657.id_camellia128_wrap", Rfc3657.id_camellia128_wrap),
   ("rfc3657.id_camellia192_wrap", Rfc3657.id_camellia192_wrap),
   ("rfc3657.id_camellia256_wrap", Rfc3657.id_camellia256_wrap),
   ("rfc3657.Camellia_IV", Rfc3657.Camellia_IV),
   ("rfc3657.CamelliaSMimeCapability", Rfc3657.CamelliaSMimeCapability)]

def Rfc3657.fills : List (String × Py.Proto) :=
  []

def Rfc3709.steps : List (String × Py.Obj) :=
  [("rfc3709.HashAlgAndValue__0", Rfc3709.HashAlgAndValue__0),
   ("rfc3709.HashAlgAndValue", Rfc3709.HashAlgAndValue),
   ("rfc3709.LogotypeDetails__0", Rfc3709.LogotypeDetails__0),
   ("rfc3709.LogotypeDetails", Rfc3709.LogotypeDetails),
   ("rfc3709.LogotypeAudioInfo__0", Rfc3709.LogotypeAudioInfo__0),
   ("rfc3709.LogotypeAudioInfo", Rfc3709.LogotypeAudioInfo),
   ("rfc3709.LogotypeAudio__0", Rfc3709.LogotypeAudio__0),
   ("rfc3709.LogotypeAudio", Rfc3709.LogotypeAudio),
   ("rfc3709.LogotypeImageType__0", Rfc3709.LogotypeImageType__0),
   ("rfc3709.LogotypeImageType", Rfc3709.LogotypeImageType),
   ("rfc3709.LogotypeImageResolution__0", Rfc3709.LogotypeImageResolution__0),
   ("rfc3709.LogotypeImageResolution", Rfc3709.LogotypeImageResolution),
   ("rfc3709.LogotypeImageInfo__0", Rfc3709.LogotypeImageInfo__0),
   ("rfc3709.LogotypeImageInfo", Rfc3709.LogotypeImageInfo),
   ("rfc3709.LogotypeImage__0", Rfc3709.LogotypeImage__0),
   ("rfc3709.LogotypeImage", Rfc3709.LogotypeImage),
   ("rfc3709.LogotypeData__0", Rfc3709.LogotypeData__0),
   ("rfc3709.LogotypeData", Rfc3709.LogotypeData),
   ("rfc3709.LogotypeReference__0", Rfc3709.LogotypeReference__0),
   ("rfc3709.LogotypeReference", Rfc3709.LogotypeReference),
   ("rfc3709.LogotypeInfo__0", Rfc3709.LogotypeInfo__0),
   ("rfc3709.LogotypeInfo", Rfc3709.LogotypeInfo),
   ("rfc3709.id_logo_background", Rfc3709.id_logo_background),
   ("rfc3709.id_logo_loyalty", Rfc3709.id_logo_loyalty),
   ("rfc3709.id_logo_certImage", Rfc3709.id_logo_certImage),
   ("rfc3709.OtherLogotypeInfo__0", Rfc3709.OtherLogotypeInfo__0),
   ("rfc3709.OtherLogotypeInfo", Rfc3709.OtherLogotypeInfo),
   ("rfc3709.id_pe_logotype", Rfc3709.id_pe_logotype),
   ("rfc3709.LogotypeExtn__0", Rfc3709.LogotypeExtn__0),
   ("rfc3709.LogotypeExtn", Rfc3709.LogotypeExtn)]

def Rfc3709.fills : List (String × Py.Proto) :=
  []

def Rfc3739.steps : List (String × Py.Obj) :=
  [("rfc3739.AlgorithmIdentifier", Rfc3739.AlgorithmIdentifier),
   ("rfc3739.AttributeType", Rfc3739.AttributeType),
   ("rfc3739.DirectoryString", Rfc3739.DirectoryString),
   ("rfc3739.GeneralName", Rfc3739.GeneralName),
   ("rfc3739.id_pkix", Rfc3739.id_pkix),
   ("rfc3739.id_pe", Rfc3739.id_pe),
   ("rfc3739.id_pda", Rfc3739.id_pda),
   ("rfc3739.id_qcs__0", Rfc3739.id_qcs__0),
   ("rfc3739.id_pda_dateOfBirth", Rfc3739.id_pda_dateOfBirth),
   ("rfc3739.DateOfBirth", Rfc3739.DateOfBirth),
   ("rfc3739.id_pda_placeOfBirth", Rfc3739.id_pda_placeOfBirth),
   ("rfc3739.PlaceOfBirth", Rfc3739.PlaceOfBirth),
   ("rfc3739.id_pda_gender", Rfc3739.id_pda_gender),
   ("rfc3739.Gender", Rfc3739.Gender),
   ("rfc3739.id_pda_countryOfCitizenship", Rfc3739.id_pda_countryOfCitizenship),
   ("rfc3739.CountryOfCitizenship", Rfc3739.CountryOfCitizenship),
   ("rfc3739.id_pda_countryOfResidence", Rfc3739.id_pda_countryOfResidence),
   ("rfc3739.CountryOfResidence", Rfc3739.CountryOfResidence),
   ("rfc3739.id_pe_biometricInfo", Rfc3739.id_pe_biometricInfo),
   ("rfc3739.PredefinedBiometricType", Rfc3739.PredefinedBiometricType),
   ("rfc3739.TypeOfBiometricData", Rfc3739.TypeOfBiometricData),
   ("rfc3739.BiometricData", Rfc3739.BiometricData),
   ("rfc3739.BiometricSyntax", Rfc3739.BiometricSyntax),
   ("rfc3739.id_pe_qcStatements", Rfc3739.id_pe_qcStatements),
   ("rfc3739.NameRegistrationAuthorities", Rfc3739.NameRegistrationAuthorities),
   ("rfc3739.QCStatement", Rfc3739.QCStatement),
   ("rfc3739.QCStatements", Rfc3739.QCStatements),
   ("rfc3739.SemanticsInformation", Rfc3739.SemanticsInformation),
   ("rfc3739.id_qcs", Rfc3739.id_qcs),
   ("rfc3739.id_qcs_pkixQCSyntax_v1", Rfc3739.id_qcs_pkixQCSyntax_v1),
   ("rfc3739.id_qcs_pkixQCSyntax_v2", Rfc3739.id_qcs_pkixQCSyntax_v2)]

def Rfc3739.fills : List (String × Py.Proto) :=
  []

def Rfc3770.steps : List (String × Py.Obj) :=
  [("rfc3770.id_kp_eapOverLAN", Rfc3770.id_kp_eapOverLAN),
   ("rfc3770.id_kp_eapOverPPP", Rfc3770.id_kp_eapOverPPP),
   ("rfc3770.id_pe_wlanSSID", Rfc3770.id_pe_wlanSSID),
   ("rfc3770.SSID__0", Rfc3770.SSID__0),
   ("rfc3770.SSID", Rfc3770.SSID),
   ("rfc3770.SSIDList__0", Rfc3770.SSIDList__0),
   ("rfc3770.SSIDList__1", Rfc3770.SSIDList__1),
   ("rfc3770.SSIDList", Rfc3770.SSIDList),
   ("rfc3770.id_aca_wlanSSID", Rfc3770.id_aca_wlanSSID)]

def Rfc3770.fills : List (String × Py.Proto) :=
  []

def Rfc3779.steps : List (String × Py.Obj) :=
  [("rfc3779.id_pe_ipAddrBlocks", Rfc3779.id_pe_ipAddrBlocks),
   ("rfc3779.IPAddress", Rfc3779.IPAddress),
   ("rfc3779.IPAddressRange__0", Rfc3779.IPAddressRange__0),
   ("rfc3779.IPAddressRange", Rfc3779.IPAddressRange),
   ("rfc3779.IPAddressOrRange__0", Rfc3779.IPAddressOrRange__0),
   ("rfc3779.IPAddressOrRange", Rfc3779.IPAddressOrRange),
   ("rfc3779.IPAddressChoice__0", Rfc3779.IPAddressChoice__0),
   ("rfc3779.IPAddressChoice", Rfc3779.IPAddressChoice),
   ("rfc3779.IPAddressFamily__0", Rfc3779.IPAddressFamily__0),
   ("rfc3779.IPAddressFamily", Rfc3779.IPAddressFamily),
   ("rfc3779.IPAddrBlocks__0", Rfc3779.IPAddrBlocks__0),
   ("rfc3779.IPAddrBlocks", Rfc3779.IPAddrBlocks),
   ("rfc3779.id_pe_autonomousSysIds", Rfc3779.id_pe_autonomousSysIds),
   ("rfc3779.ASId", Rfc3779.ASId),
   ("rfc3779.ASRange__0", Rfc3779.ASRange__0),
   ("rfc3779.ASRange", Rfc3779.ASRange),
   ("rfc3779.ASIdOrRange__0", Rfc3779.ASIdOrRange__0),
   ("rfc3779.ASIdOrRange", Rfc3779.ASIdOrRange),
   ("rfc3779.ASIdentifierChoice__0", Rfc3779.ASIdentifierChoice__0),
   ("rfc3779.ASIdentifierChoice", Rfc3779.ASIdentifierChoice),
   ("rfc3779.ASIdentifiers__0", Rfc3779.ASIdentifiers__0),
   ("rfc3779.ASIdentifiers", Rfc3779.ASIdentifiers)]

def Rfc3779.fills : List (String × Py.Proto) :=
  []

def Rfc3820.steps : List (String × Py.Obj) :=
  [("rfc3820.ProxyCertPathLengthConstraint", Rfc3820.ProxyCertPathLengthConstraint),
   ("rfc3820.ProxyPolicy", Rfc3820.ProxyPolicy),
   ("rfc3820.ProxyCertInfoExtension", Rfc3820.ProxyCertInfoExtension),
   ("rfc3820.id_pkix", Rfc3820.id_pkix),
   ("rfc3820.id_pe", Rfc3820.id_pe),
   ("rfc3820.id_pe_proxyCertInfo", Rfc3820.id_pe_proxyCertInfo),
   ("rfc3820.id_ppl", Rfc3820.id_ppl),
   ("rfc3820.id_ppl_anyLanguage", Rfc3820.id_ppl_anyLanguage),
   ("rfc3820.id_ppl_inheritAll", Rfc3820.id_ppl_inheritAll),
   ("rfc3820.id_ppl_independent", Rfc3820.id_ppl_independent)]

def Rfc3820.fills : List (String × Py.Proto) :=
  []

def Rfc3852.steps : List (String × Py.Obj) :=
  [("rfc3852.AttributeValue", Rfc3852.AttributeValue),
   ("rfc3852.Attribute__0", Rfc3852.Attribute__0),
   ("rfc3852.Attribute", Rfc3852.Attribute),
   ("rfc3852.SignedAttributes__0", Rfc3852.SignedAttributes__0),
   ("rfc3852.SignedAttributes__1", Rfc3852.SignedAttributes__1),
   ("rfc3852.SignedAttributes", Rfc3852.SignedAttributes),
   ("rfc3852.OtherRevocationInfoFormat__0", Rfc3852.OtherRevocationInfoFormat__0),
   ("rfc3852.OtherRevocationInfoFormat", Rfc3852.OtherRevocationInfoFormat),
   ("rfc3852.RevocationInfoChoice__0", Rfc3852.RevocationInfoChoice__0),
   ("rfc3852.RevocationInfoChoice", Rfc3852.RevocationInfoChoice),
   ("rfc3852.RevocationInfoChoices__0", Rfc3852.RevocationInfoChoices__0),
   ("rfc3852.RevocationInfoChoices", Rfc3852.RevocationInfoChoices),
   ("rfc3852.OtherKeyAttribute__0", Rfc3852.OtherKeyAttribute__0),
   ("rfc3852.OtherKeyAttribute", Rfc3852.OtherKeyAttribute),
   ("rfc3852.id_signedData", Rfc3852.id_signedData),
   ("rfc3852.KeyEncryptionAlgorithmIdentifier", Rfc3852.KeyEncryptionAlgorithmIdentifier),
   ("rfc3852.EncryptedKey", Rfc3852.EncryptedKey),
   ("rfc3852.CMSVersion__0", Rfc3852.CMSVersion__0),
   ("rfc3852.CMSVersion", Rfc3852.CMSVersion),
   ("rfc3852.KEKIdentifier__0", Rfc3852.KEKIdentifier__0),
   ("rfc3852.KEKIdentifier", Rfc3852.KEKIdentifier),
   ("rfc3852.KEKRecipientInfo__0", Rfc3852.KEKRecipientInfo__0),
   ("rfc3852.KEKRecipientInfo", Rfc3852.KEKRecipientInfo),
   ("rfc3852.KeyDerivationAlgorithmIdentifier", Rfc3852.KeyDerivationAlgorithmIdentifier),
   ("rfc3852.PasswordRecipientInfo__0", Rfc3852.PasswordRecipientInfo__0),
   ("rfc3852.PasswordRecipientInfo", Rfc3852.PasswordRecipientInfo),
   ("rfc3852.OtherRecipientInfo__0", Rfc3852.OtherRecipientInfo__0),
   ("rfc3852.OtherRecipientInfo", Rfc3852.OtherRecipientInfo),
   ("rfc3852.IssuerAndSerialNumber__0", Rfc3852.IssuerAndSerialNumber__0),
   ("rfc3852.IssuerAndSerialNumber", Rfc3852.IssuerAndSerialNumber),
   ("rfc3852.SubjectKeyIdentifier", Rfc3852.SubjectKeyIdentifier),
   ("rfc3852.RecipientKeyIdentifier__0", Rfc3852.RecipientKeyIdentifier__0),
   ("rfc3852.RecipientKeyIdentifier", Rfc3852.RecipientKeyIdentifier),
   ("rfc3852.KeyAgreeRecipientIdentifier__0", Rfc3852.KeyAgreeRecipientIdentifier__0),
   ("rfc3852.KeyAgreeRecipientIdentifier", Rfc3852.KeyAgreeRecipientIdentifier),
   ("rfc3852.RecipientEncryptedKey__0", Rfc3852.RecipientEncryptedKey__0),
   ("rfc3852.RecipientEncryptedKey", Rfc3852.RecipientEncryptedKey),
   ("rfc3852.RecipientEncryptedKeys__0", Rfc3852.RecipientEncryptedKeys__0),
   ("rfc3852.RecipientEncryptedKeys", Rfc3852.RecipientEncryptedKeys),
   ("rfc3852.UserKeyingMaterial", Rfc3852.UserKeyingMaterial),
   ("rfc3852.OriginatorPublicKey__0", Rfc3852.OriginatorPublicKey__0),
   ("rfc3852.OriginatorPublicKey", Rfc3852.OriginatorPublicKey),
   ("rfc3852.OriginatorIdentifierOrKey__0", Rfc3852.OriginatorIdentifierOrKey__0),
   ("rfc3852.OriginatorIdentifierOrKey", Rfc3852.OriginatorIdentifierOrKey),
   ("rfc3852.KeyAgreeRecipientInfo__0", Rfc3852.KeyAgreeRecipientInfo__0),
   ("rfc3852.KeyAgreeRecipientInfo", Rfc3852.KeyAgreeRecipientInfo),
   ("rfc3852.RecipientIdentifier__0", Rfc3852.RecipientIdentifier__0),
   ("rfc3852.RecipientIdentifier", Rfc3852.RecipientIdentifier),
   ("rfc3852.KeyTransRecipientInfo__0", Rfc3852.KeyTransRecipientInfo__0),
   ("rfc3852.KeyTransRecipientInfo", Rfc3852.KeyTransRecipientInfo),
   ("rfc3852.RecipientInfo__0", Rfc3852.RecipientInfo__0),
   ("rfc3852.RecipientInfo", Rfc3852.RecipientInfo),
   ("rfc3852.RecipientInfos__0", Rfc3852.RecipientInfos__0),
   ("rfc3852.RecipientInfos__1", Rfc3852.RecipientInfos__1),
   ("rfc3852.RecipientInfos", Rfc3852.RecipientInfos),
   ("rfc3852.DigestAlgorithmIdentifier", Rfc3852.DigestAlgorithmIdentifier),
   ("rfc3852.Signature", Rfc3852.Signature),
   ("rfc3852.SignerIdentifier__0", Rfc3852.SignerIdentifier__0),
   ("rfc3852.SignerIdentifier", Rfc3852.SignerIdentifier),
   ("rfc3852.UnprotectedAttributes__0", Rfc3852.UnprotectedAttributes__0),
   ("rfc3852.UnprotectedAttributes__1", Rfc3852.UnprotectedAttributes__1),
   ("rfc3852.UnprotectedAttributes", Rfc3852.UnprotectedAttributes),
   ("rfc3852.ContentType", Rfc3852.ContentType),
   ("rfc3852.EncryptedContent", Rfc3852.EncryptedContent),
   ("rfc3852.ContentEncryptionAlgorithmIdentifier", Rfc3852.ContentEncryptionAlgorithmIdentifier),
   ("rfc3852.EncryptedContentInfo__0", Rfc3852.EncryptedContentInfo__0),
   ("rfc3852.EncryptedContentInfo", Rfc3852.EncryptedContentInfo),
   ("rfc3852.EncryptedData__0", Rfc3852.EncryptedData__0),
   ("rfc3852.EncryptedData", Rfc3852.EncryptedData),
   ("rfc3852.id_contentType", Rfc3852.id_contentType),
   ("rfc3852.id_data", Rfc3852.id_data),
   ("rfc3852.id_messageDigest", Rfc3852.id_messageDigest),
   ("rfc3852.DigestAlgorithmIdentifiers__0", Rfc3852.DigestAlgorithmIdentifiers__0),
   ("rfc3852.DigestAlgorithmIdentifiers", Rfc3852.DigestAlgorithmIdentifiers),
   ("rfc3852.EncapsulatedContentInfo__0", Rfc3852.EncapsulatedContentInfo__0),
   ("rfc3852.EncapsulatedContentInfo", Rfc3852.EncapsulatedContentInfo),
   ("rfc3852.Digest", Rfc3852.Digest),
   ("rfc3852.DigestedData__0", Rfc3852.DigestedData__0),
   ("rfc3852.DigestedData", Rfc3852.DigestedData),
   ("rfc3852.ContentInfo__0", Rfc3852.ContentInfo__0),
   ("rfc3852.ContentInfo", Rfc3852.ContentInfo),
   ("rfc3852.UnauthAttributes__0", Rfc3852.UnauthAttributes__0),
   ("rfc3852.UnauthAttributes__1", Rfc3852.UnauthAttributes__1),
   ("rfc3852.UnauthAttributes", Rfc3852.UnauthAttributes),
   ("rfc3852.ExtendedCertificateInfo__0", Rfc3852.ExtendedCertificateInfo__0),
   ("rfc3852.ExtendedCertificateInfo", Rfc3852.ExtendedCertificateInfo),
   ("rfc3852.SignatureAlgorithmIdentifier", Rfc3852.SignatureAlgorithmIdentifier),
   ("rfc3852.ExtendedCertificate__0", Rfc3852.ExtendedCertificate__0),
   ("rfc3852.ExtendedCertificate", Rfc3852.ExtendedCertificate),
   ("rfc3852.OtherCertificateFormat__0", Rfc3852.OtherCertificateFormat__0),
   ("rfc3852.OtherCertificateFormat", Rfc3852.OtherCertificateFormat),
   ("rfc3852.AttributeCertificateV2", Rfc3852.AttributeCertificateV2),
   ("rfc3852.AttCertVersionV1__0", Rfc3852.AttCertVersionV1__0),
   ("rfc3852.AttCertVersionV1", Rfc3852.AttCertVersionV1),
   ("rfc3852.AttributeCertificateInfoV1__0", Rfc3852.AttributeCertificateInfoV1__0),
   ("rfc3852.AttributeCertificateInfoV1", Rfc3852.AttributeCertificateInfoV1),
   ("rfc3852.AttributeCertificateV1__0", Rfc3852.AttributeCertificateV1__0),
   ("rfc3852.AttributeCertificateV1", Rfc3852.AttributeCertificateV1),
   ("rfc3852.CertificateChoices__0", Rfc3852.CertificateChoices__0),
   ("rfc3852.CertificateChoices", Rfc3852.CertificateChoices),
   ("rfc3852.CertificateSet__0", Rfc3852.CertificateSet__0),
   ("rfc3852.CertificateSet", Rfc3852.CertificateSet),
   ("rfc3852.MessageAuthenticationCode", Rfc3852.MessageAuthenticationCode),
   ("rfc3852.UnsignedAttributes__0", Rfc3852.UnsignedAttributes__0),
   ("rfc3852.UnsignedAttributes__1", Rfc3852.UnsignedAttributes__1),
   ("rfc3852.UnsignedAttributes", Rfc3852.UnsignedAttributes),
   ("rfc3852.SignatureValue", Rfc3852.SignatureValue),
   ("rfc3852.SignerInfo__0", Rfc3852.SignerInfo__0),
   ("rfc3852.SignerInfo", Rfc3852.SignerInfo),
   ("rfc3852.SignerInfos__0", Rfc3852.SignerInfos__0),
   ("rfc3852.SignerInfos", Rfc3852.SignerInfos),
   ("rfc3852.SignedData__0", Rfc3852.SignedData__0),
   ("rfc3852.SignedData", Rfc3852.SignedData),
   ("rfc3852.MessageAuthenticationCodeAlgorithm", Rfc3852.MessageAuthenticationCodeAlgorithm),
   ("rfc3852.MessageDigest", Rfc3852.MessageDigest),
   ("rfc3852.Time__0", Rfc3852.Time__0),
   ("rfc3852.Time", Rfc3852.Time),
   ("rfc3852.OriginatorInfo__0", Rfc3852.OriginatorInfo__0),
   ("rfc3852.OriginatorInfo", Rfc3852.OriginatorInfo),
   ("rfc3852.AuthAttributes__0", Rfc3852.AuthAttributes__0),
   ("rfc3852.AuthAttributes__1", Rfc3852.AuthAttributes__1),
   ("rfc3852.AuthAttributes", Rfc3852.AuthAttributes),
   ("rfc3852.AuthenticatedData__0", Rfc3852.AuthenticatedData__0),
   ("rfc3852.AuthenticatedData", Rfc3852.AuthenticatedData),
   ("rfc3852.id_ct_contentInfo", Rfc3852.id_ct_contentInfo),
   ("rfc3852.id_envelopedData", Rfc3852.id_envelopedData),
   ("rfc3852.EnvelopedData__0", Rfc3852.EnvelopedData__0),
   ("rfc3852.EnvelopedData", Rfc3852.EnvelopedData),
   ("rfc3852.Countersignature", Rfc3852.Countersignature),
   ("rfc3852.id_digestedData", Rfc3852.id_digestedData),
   ("rfc3852.id_signingTime", Rfc3852.id_signingTime),
   ("rfc3852.ExtendedCertificateOrCertificate__0", Rfc3852.ExtendedCertificateOrCertificate__0),
   ("rfc3852.ExtendedCertificateOrCertificate", Rfc3852.ExtendedCertificateOrCertificate),
   ("rfc3852.id_encryptedData", Rfc3852.id_encryptedData),
   ("rfc3852.id_ct_authData", Rfc3852.id_ct_authData),
   ("rfc3852.SigningTime", Rfc3852.SigningTime),
   ("rfc3852.id_countersignature", Rfc3852.id_countersignature)]

def Rfc3852.fills : List (String × Py.Proto) :=
  []

def Rfc4010.steps : List (String × Py.Obj) :=
  [("rfc4010.id_seedCBC", Rfc4010.id_seedCBC),
   ("rfc4010.id_npki_app_cmsSeed_wrap", Rfc4010.id_npki_app_cmsSeed_wrap),
   ("rfc4010.SeedIV", Rfc4010.SeedIV),
   ("rfc4010.SeedCBCParameter", Rfc4010.SeedCBCParameter),
   ("rfc4010.SeedSMimeCapability", Rfc4010.SeedSMimeCapability)]

def Rfc4010.fills : List (String × Py.Proto) :=
  []

def Rfc4043.steps : List (String × Py.Obj) :=
  [("rfc4043.id_pkix", Rfc4043.id_pkix),
   ("rfc4043.id_on", Rfc4043.id_on),
   ("rfc4043.id_on_permanentIdentifier", Rfc4043.id_on_permanentIdentifier),
   ("rfc4043.PermanentIdentifier", Rfc4043.PermanentIdentifier)]

def Rfc4043.fills : List (String × Py.Proto) :=
  []

def Rfc4055.steps : List (String × Py.Obj) :=
  [("rfc4055.id_sha1", Rfc4055.id_sha1),
   ("rfc4055.id_sha256", Rfc4055.id_sha256),
   ("rfc4055.id_sha384", Rfc4055.id_sha384),
   ("rfc4055.id_sha512", Rfc4055.id_sha512),
   ("rfc4055.id_sha224", Rfc4055.id_sha224),
   ("rfc4055.rsaEncryption", Rfc4055.rsaEncryption),
   ("rfc4055.id_mgf1", Rfc4055.id_mgf1),
   ("rfc4055.id_RSAES_OAEP", Rfc4055.id_RSAES_OAEP),
   ("rfc4055.id_pSpecified", Rfc4055.id_pSpecified),
   ("rfc4055.id_RSASSA_PSS", Rfc4055.id_RSASSA_PSS),
   ("rfc4055.sha256WithRSAEncryption", Rfc4055.sha256WithRSAEncryption),
   ("rfc4055.sha384WithRSAEncryption", Rfc4055.sha384WithRSAEncryption),
   ("rfc4055.sha512WithRSAEncryption", Rfc4055.sha512WithRSAEncryption),
   ("rfc4055.sha224WithRSAEncryption", Rfc4055.sha224WithRSAEncryption),
   ("rfc4055.RSAPublicKey__0", Rfc4055.RSAPublicKey__0),
   ("rfc4055.RSAPublicKey", Rfc4055.RSAPublicKey),
   ("rfc4055.HashAlgorithm", Rfc4055.HashAlgorithm),
   ("rfc4055.MaskGenAlgorithm", Rfc4055.MaskGenAlgorithm),
   ("rfc4055.RSAES_OAEP_params__0", Rfc4055.RSAES_OAEP_params__0),
   ("rfc4055.RSAES_OAEP_params", Rfc4055.RSAES_OAEP_params),
   ("rfc4055.rSAES_OAEP_Default_Params", Rfc4055.rSAES_OAEP_Default_Params),
   ("rfc4055.RSASSA_PSS_params__0", Rfc4055.RSASSA_PSS_params__0),
   ("rfc4055.RSASSA_PSS_params", Rfc4055.RSASSA_PSS_params),
   ("rfc4055.rSASSA_PSS_Default_Params", Rfc4055.rSASSA_PSS_Default_Params)]

def Rfc4055.fills : List (String × Py.Proto) :=
  [("rfc4055.sha1Identifier__0", Rfc4055.sha1Identifier__0),
   ("rfc4055.sha1Identifier__1", Rfc4055.sha1Identifier__1),
   ("rfc4055.sha1Identifier", Rfc4055.sha1Identifier),
   ("rfc4055.sha224Identifier__0", Rfc4055.sha224Identifier__0),
   ("rfc4055.sha224Identifier__1", Rfc4055.sha224Identifier__1),
   ("rfc4055.sha224Identifier", Rfc4055.sha224Identifier),
   ("rfc4055.sha256Identifier__0", Rfc4055.sha256Identifier__0),
   ("rfc4055.sha256Identifier__1", Rfc4055.sha256Identifier__1),
   ("rfc4055.sha256Identifier", Rfc4055.sha256Identifier),
   ("rfc4055.sha384Identifier__0", Rfc4055.sha384Identifier__0),
   ("rfc4055.sha384Identifier__1", Rfc4055.sha384Identifier__1),
   ("rfc4055.sha384Identifier", Rfc4055.sha384Identifier),
   ("rfc4055.sha512Identifier__0", Rfc4055.sha512Identifier__0),
   ("rfc4055.sha512Identifier__1", Rfc4055.sha512Identifier__1),
   ("rfc4055.sha512Identifier", Rfc4055.sha512Identifier),
   ("rfc4055.mgf1SHA1Identifier__0", Rfc4055.mgf1SHA1Identifier__0),
   ("rfc4055.mgf1SHA1Identifier__1", Rfc4055.mgf1SHA1Identifier__1),
   ("rfc4055.mgf1SHA1Identifier", Rfc4055.mgf1SHA1Identifier),
   ("rfc4055.mgf1SHA224Identifier__0", Rfc4055.mgf1SHA224Identifier__0),
   ("rfc4055.mgf1SHA224Identifier__1", Rfc4055.mgf1SHA224Identifier__1),
   ("rfc4055.mgf1SHA224Identifier", Rfc4055.mgf1SHA224Identifier),
   ("rfc4055.mgf1SHA256Identifier__0", Rfc4055.mgf1SHA256Identifier__0),
   ("rfc4055.mgf1SHA256Identifier__1", Rfc4055.mgf1SHA256Identifier__1),
   ("rfc4055.mgf1SHA256Identifier", Rfc4055.mgf1SHA256Identifier),
   ("rfc4055.mgf1SHA384Identifier__0", Rfc4055.mgf1SHA384Identifier__0),
   ("rfc4055.mgf1SHA384Identifier__1", Rfc4055.mgf1SHA384Identifier__1),
   ("rfc4055.mgf1SHA384Identifier", Rfc4055.mgf1SHA384Identifier),
   ("rfc4055.mgf1SHA512Identifier__0", Rfc4055.mgf1SHA512Identifier__0),
   ("rfc4055.mgf1SHA512Identifier__1", Rfc4055.mgf1SHA512Identifier__1),
   ("rfc4055.mgf1SHA512Identifier", Rfc4055.mgf1SHA512Identifier),
   ("rfc4055.pSpecifiedEmptyIdentifier__0", Rfc4055.pSpecifiedEmptyIdentifier__0),
   ("rfc4055.pSpecifiedEmptyIdentifier__1", Rfc4055.pSpecifiedEmptyIdentifier__1),
   ("rfc4055.pSpecifiedEmptyIdentifier", Rfc4055.pSpecifiedEmptyIdentifier),
   ("rfc4055.rSAES_OAEP_Default_Identifier__0", Rfc4055.rSAES_OAEP_Default_Identifier__0),
   ("rfc4055.rSAES_OAEP_Default_Identifier__1", Rfc4055.rSAES_OAEP_Default_Identifier__1),
   ("rfc4055.rSAES_OAEP_Default_Identifier", Rfc4055.rSAES_OAEP_Default_Identifier),
   ("rfc4055.rSAES_OAEP_SHA224_Params__0", Rfc4055.rSAES_OAEP_SHA224_Params__0),
   ("rfc4055.rSAES_OAEP_SHA224_Params__1", Rfc4055.rSAES_OAEP_SHA224_Params__1),
   ("rfc4055.rSAES_OAEP_SHA224_Params", Rfc4055.rSAES_OAEP_SHA224_Params),
   ("rfc4055.rSAES_OAEP_SHA224_Identifier__0", Rfc4055.rSAES_OAEP_SHA224_Identifier__0),
   ("rfc4055.rSAES_OAEP_SHA224_Identifier__1", Rfc4055.rSAES_OAEP_SHA224_Identifier__1),
   ("rfc4055.rSAES_OAEP_SHA224_Identifier", Rfc4055.rSAES_OAEP_SHA224_Identifier),
   ("rfc4055.rSAES_OAEP_SHA256_Params__0", Rfc4055.rSAES_OAEP_SHA256_Params__0),
   ("rfc4055.rSAES_OAEP_SHA256_Params__1", Rfc4055.rSAES_OAEP_SHA256_Params__1),
   ("rfc4055.rSAES_OAEP_SHA256_Params", Rfc4055.rSAES_OAEP_SHA256_Params),
   ("rfc4055.rSAES_OAEP_SHA256_Identifier__0", Rfc4055.rSAES_OAEP_SHA256_Identifier__0),
   ("rfc4055.rSAES_OAEP_SHA256_Identifier__1", Rfc4055.rSAES_OAEP_SHA256_Identifier__1),
   ("rfc4055.rSAES_OAEP_SHA256_Identifier", Rfc4055.rSAES_OAEP_SHA256_Identifier),
   ("rfc4055.rSAES_OAEP_SHA384_Params__0", Rfc4055.rSAES_OAEP_SHA384_Params__0),
   ("rfc4055.rSAES_OAEP_SHA384_Params__1", Rfc4055.rSAES_OAEP_SHA384_Params__1),
   ("rfc4055.rSAES_OAEP_SHA384_Params", Rfc4055.rSAES_OAEP_SHA384_Params),
   ("rfc4055.rSAES_OAEP_SHA384_Identifier__0", Rfc4055.rSAES_OAEP_SHA384_Identifier__0),
   ("rfc4055.rSAES_OAEP_SHA384_Identifier__1", Rfc4055.rSAES_OAEP_SHA384_Identifier__1),
   ("rfc4055.rSAES_OAEP_SHA384_Identifier", Rfc4055.rSAES_OAEP_SHA384_Identifier),
   ("rfc4055.rSAES_OAEP_SHA512_Params__0", Rfc4055.rSAES_OAEP_SHA512_Params__0),
   ("rfc4055.rSAES_OAEP_SHA512_Params__1", Rfc4055.rSAES_OAEP_SHA512_Params__1),
   ("rfc4055.rSAES_OAEP_SHA512_Params", Rfc4055.rSAES_OAEP_SHA512_Params),
   ("rfc4055.rSAES_OAEP_SHA512_Identifier__0", Rfc4055.rSAES_OAEP_SHA512_Identifier__0),
   ("rfc4055.rSAES_OAEP_SHA512_Identifier__1", Rfc4055.rSAES_OAEP_SHA512_Identifier__1),
   ("rfc4055.rSAES_OAEP_SHA512_Identifier", Rfc4055.rSAES_OAEP_SHA512_Identifier),
   ("rfc4055.rSASSA_PSS_Default_Identifier__0", Rfc4055.rSASSA_PSS_Default_Identifier__0),
   ("rfc4055.rSASSA_PSS_Default_Identifier__1", Rfc4055.rSASSA_PSS_Default_Identifier__1),
   ("rfc4055.rSASSA_PSS_Default_Identifier", Rfc4055.rSASSA_PSS_Default_Identifier),
   ("rfc4055.rSASSA_PSS_SHA224_Params__0", Rfc4055.rSASSA_PSS_SHA224_Params__0),
   ("rfc4055.rSASSA_PSS_SHA224_Params__1", Rfc4055.rSASSA_PSS_SHA224_Params__1),
   ("rfc4055.rSASSA_PSS_SHA224_Params", Rfc4055.rSASSA_PSS_SHA224_Params),
   ("rfc4055.rSASSA_PSS_SHA224_Identifier__0", Rfc4055.rSASSA_PSS_SHA224_Identifier__0),
   ("rfc4055.rSASSA_PSS_SHA224_Identifier__1", Rfc4055.rSASSA_PSS_SHA224_Identifier__1),
   ("rfc4055.rSASSA_PSS_SHA224_Identifier", Rfc4055.rSASSA_PSS_SHA224_Identifier),
   ("rfc4055.rSASSA_PSS_SHA256_Params__0", Rfc4055.rSASSA_PSS_SHA256_Params__0),
   ("rfc4055.rSASSA_PSS_SHA256_Params__1", Rfc4055.rSASSA_PSS_SHA256_Params__1),
   ("rfc4055.rSASSA_PSS_SHA256_Params", Rfc4055.rSASSA_PSS_SHA256_Params),
   ("rfc4055.rSASSA_PSS_SHA256_Identifier__0", Rfc4055.rSASSA_PSS_SHA256_Identifier__0),
   ("rfc4055.rSASSA_PSS_SHA256_Identifier__1", Rfc4055.rSASSA_PSS_SHA256_Identifier__1),
   ("rfc4055.rSASSA_PSS_SHA256_Identifier", Rfc4055.rSASSA_PSS_SHA256_Identifier),
   ("rfc4055.rSASSA_PSS_SHA384_Params__0", Rfc4055.rSASSA_PSS_SHA384_Params__0),
   ("rfc4055.rSASSA_PSS_SHA384_Params__1", Rfc4055.rSASSA_PSS_SHA384_Params__1),
   ("rfc4055.rSASSA_PSS_SHA384_Params", Rfc4055.rSASSA_PSS_SHA384_Params),
   ("rfc4055.rSASSA_PSS_SHA384_Identifier__0", Rfc4055.rSASSA_PSS_SHA384_Identifier__0),
   ("rfc4055.rSASSA_PSS_SHA384_Identifier__1", Rfc4055.rSASSA_PSS_SHA384_Identifier__1),
   ("rfc4055.rSASSA_PSS_SHA384_Identifier", Rfc4055.rSASSA_PSS_SHA384_Identifier),
   ("rfc4055.rSASSA_PSS_SHA512_Params__0", Rfc4055.rSASSA_PSS_SHA512_Params__0),
   ("rfc4055.rSASSA_PSS_SHA512_Params__1", Rfc4055.rSASSA_PSS_SHA512_Params__1),
   ("rfc4055.rSASSA_PSS_SHA512_Params", Rfc4055.rSASSA_PSS_SHA512_Params),
   ("rfc4055.rSASSA_PSS_SHA512_Identifier__0", Rfc4055.rSASSA_PSS_SHA512_Identifier__0),
   ("rfc4055.rSASSA_PSS_SHA512_Identifier__1", Rfc4055.rSASSA_PSS_SHA512_Identifier__1),
   ("rfc4055.rSASSA_PSS_SHA512_Identifier", Rfc4055.rSASSA_PSS_SHA512_Identifier)]

def Rfc4073.steps : List (String × Py.Obj) :=
  [("rfc4073.id_ct_contentCollection", Rfc4073.id_ct_contentCollection),
   ("rfc4073.ContentCollection__0", Rfc4073.ContentCollection__0),
   ("rfc4073.ContentCollection__1", Rfc4073.ContentCollection__1),
   ("rfc4073.ContentCollection", Rfc4073.ContentCollection),
   ("rfc4073.id_ct_contentWithAttrs", Rfc4073.id_ct_contentWithAttrs),
   ("rfc4073.ContentWithAttributes__0", Rfc4073.ContentWithAttributes__0),
   ("rfc4073.ContentWithAttributes", Rfc4073.ContentWithAttributes)]

def Rfc4073.fills : List (String × Py.Proto) :=
  []

def Rfc4108.steps : List (String × Py.Obj) :=
  [("rfc4108.HardwareSerialEntry__0", Rfc4108.HardwareSerialEntry__0),
   ("rfc4108.HardwareSerialEntry", Rfc4108.HardwareSerialEntry),
   ("rfc4108.HardwareModules__0", Rfc4108.HardwareModules__0),
   ("rfc4108.HardwareModules", Rfc4108.HardwareModules),
   ("rfc4108.CommunityIdentifier__0", Rfc4108.CommunityIdentifier__0),
   ("rfc4108.CommunityIdentifier", Rfc4108.CommunityIdentifier),
   ("rfc4108.PreferredPackageIdentifier__0", Rfc4108.PreferredPackageIdentifier__0),
   ("rfc4108.PreferredPackageIdentifier", Rfc4108.PreferredPackageIdentifier),
   ("rfc4108.PreferredOrLegacyPackageIdentifier__0", Rfc4108.PreferredOrLegacyPackageIdentifier__0),
   ("rfc4108.PreferredOrLegacyPackageIdentifier", Rfc4108.PreferredOrLegacyPackageIdentifier),
   ("rfc4108.CurrentFWConfig__0", Rfc4108.CurrentFWConfig__0),
   ("rfc4108.CurrentFWConfig", Rfc4108.CurrentFWConfig),
   ("rfc4108.PreferredOrLegacyStalePackageIdentifier__0", Rfc4108.PreferredOrLegacyStalePackageIdentifier__0),
   ("rfc4108.PreferredOrLegacyStalePackageIdentifier", Rfc4108.PreferredOrLegacyStalePackageIdentifier),
   ("rfc4108.FirmwarePackageLoadErrorCode__0", Rfc4108.FirmwarePackageLoadErrorCode__0),
   ("rfc4108.FirmwarePackageLoadErrorCode", Rfc4108.FirmwarePackageLoadErrorCode),
   ("rfc4108.VendorLoadErrorCode", Rfc4108.VendorLoadErrorCode),
   ("rfc4108.id_aa_wrappedFirmwareKey", Rfc4108.id_aa_wrappedFirmwareKey),
   ("rfc4108.WrappedFirmwareKey", Rfc4108.WrappedFirmwareKey),
   ("rfc4108.id_aa_firmwarePackageInfo", Rfc4108.id_aa_firmwarePackageInfo),
   ("rfc4108.FirmwarePackageInfo__0", Rfc4108.FirmwarePackageInfo__0),
   ("rfc4108.FirmwarePackageInfo__1", Rfc4108.FirmwarePackageInfo__1),
   ("rfc4108.FirmwarePackageInfo", Rfc4108.FirmwarePackageInfo),
   ("rfc4108.id_aa_communityIdentifiers", Rfc4108.id_aa_communityIdentifiers),
   ("rfc4108.CommunityIdentifiers__0", Rfc4108.CommunityIdentifiers__0),
   ("rfc4108.CommunityIdentifiers", Rfc4108.CommunityIdentifiers),
   ("rfc4108.id_aa_implCompressAlgs", Rfc4108.id_aa_implCompressAlgs),
   ("rfc4108.ImplementedCompressAlgorithms__0", Rfc4108.ImplementedCompressAlgorithms__0),
   ("rfc4108.ImplementedCompressAlgorithms", Rfc4108.ImplementedCompressAlgorithms),
   ("rfc4108.id_aa_implCryptoAlgs", Rfc4108.id_aa_implCryptoAlgs),
   ("rfc4108.ImplementedCryptoAlgorithms__0", Rfc4108.ImplementedCryptoAlgorithms__0),
   ("rfc4108.ImplementedCryptoAlgorithms", Rfc4108.ImplementedCryptoAlgorithms),
   ("rfc4108.id_aa_decryptKeyID", Rfc4108.id_aa_decryptKeyID),
   ("rfc4108.DecryptKeyIdentifier", Rfc4108.DecryptKeyIdentifier),
   ("rfc4108.id_aa_targetHardwareIDs", Rfc4108.id_aa_targetHardwareIDs),
   ("rfc4108.TargetHardwareIdentifiers__0", Rfc4108.TargetHardwareIdentifiers__0),
   ("rfc4108.TargetHardwareIdentifiers", Rfc4108.TargetHardwareIdentifiers),
   ("rfc4108.id_aa_firmwarePackageID", Rfc4108.id_aa_firmwarePackageID),
   ("rfc4108.FirmwarePackageIdentifier__0", Rfc4108.FirmwarePackageIdentifier__0),
   ("rfc4108.FirmwarePackageIdentifier", Rfc4108.FirmwarePackageIdentifier),
   ("rfc4108.id_aa_fwPkgMessageDigest", Rfc4108.id_aa_fwPkgMessageDigest),
   ("rfc4108.FirmwarePackageMessageDigest__0", Rfc4108.FirmwarePackageMessageDigest__0),
   ("rfc4108.FirmwarePackageMessageDigest", Rfc4108.FirmwarePackageMessageDigest),
   ("rfc4108.FWErrorVersion__0", Rfc4108.FWErrorVersion__0),
   ("rfc4108.FWErrorVersion", Rfc4108.FWErrorVersion),
   ("rfc4108.id_ct_firmwareLoadError", Rfc4108.id_ct_firmwareLoadError),
   ("rfc4108.FirmwarePackageLoadError__0", Rfc4108.FirmwarePackageLoadError__0),
   ("rfc4108.FirmwarePackageLoadError", Rfc4108.FirmwarePackageLoadError),
   ("rfc4108.FWReceiptVersion__0", Rfc4108.FWReceiptVersion__0),
   ("rfc4108.FWReceiptVersion", Rfc4108.FWReceiptVersion),
   ("rfc4108.id_ct_firmwareLoadReceipt", Rfc4108.id_ct_firmwareLoadReceipt),
   ("rfc4108.FirmwarePackageLoadReceipt__0", Rfc4108.FirmwarePackageLoadReceipt__0),
   ("rfc4108.FirmwarePackageLoadReceipt", Rfc4108.FirmwarePackageLoadReceipt),
   ("rfc4108.id_ct_firmwarePackage", Rfc4108.id_ct_firmwarePackage),
   ("rfc4108.FirmwarePkgData", Rfc4108.FirmwarePkgData),
   ("rfc4108.id_on_hardwareModuleName", Rfc4108.id_on_hardwareModuleName),
   ("rfc4108.HardwareModuleName__0", Rfc4108.HardwareModuleName__0),
   ("rfc4108.HardwareModuleName", Rfc4108.HardwareModuleName)]

def Rfc4108.fills : List (String × Py.Proto) :=
  []

def Rfc4210.steps : List (String × Py.Obj) :=
  [("rfc4210.KeyIdentifier", Rfc4210.KeyIdentifier),
   ("rfc4210.CMPCertificate", Rfc4210.CMPCertificate),
   ("rfc4210.OOBCert", Rfc4210.OOBCert),
   ("rfc4210.CertAnnContent", Rfc4210.CertAnnContent),
   ("rfc4210.PKIFreeText", Rfc4210.PKIFreeText),
   ("rfc4210.PollRepContent_CertReq", Rfc4210.PollRepContent_CertReq),
   ("rfc4210.PollRepContent", Rfc4210.PollRepContent),
   ("rfc4210.PollReqContent_CertReq", Rfc4210.PollReqContent_CertReq),
   ("rfc4210.PollReqContent", Rfc4210.PollReqContent),
   ("rfc4210.InfoTypeAndValue", Rfc4210.InfoTypeAndValue),
   ("rfc4210.GenRepContent", Rfc4210.GenRepContent),
   ("rfc4210.GenMsgContent", Rfc4210.GenMsgContent),
   ("rfc4210.PKIConfirmContent", Rfc4210.PKIConfirmContent),
   ("rfc4210.CRLAnnContent", Rfc4210.CRLAnnContent),
   ("rfc4210.CAKeyUpdAnnContent", Rfc4210.CAKeyUpdAnnContent),
   ("rfc4210.RevDetails", Rfc4210.RevDetails),
   ("rfc4210.RevReqContent", Rfc4210.RevReqContent),
   ("rfc4210.CertOrEncCert", Rfc4210.CertOrEncCert),
   ("rfc4210.CertifiedKeyPair", Rfc4210.CertifiedKeyPair),
   ("rfc4210.POPODecKeyRespContent", Rfc4210.POPODecKeyRespContent),
   ("rfc4210.Challenge", Rfc4210.Challenge),
   ("rfc4210.PKIStatus", Rfc4210.PKIStatus),
   ("rfc4210.PKIFailureInfo", Rfc4210.PKIFailureInfo),
   ("rfc4210.PKIStatusInfo", Rfc4210.PKIStatusInfo),
   ("rfc4210.ErrorMsgContent", Rfc4210.ErrorMsgContent),
   ("rfc4210.CertStatus", Rfc4210.CertStatus),
   ("rfc4210.CertConfirmContent", Rfc4210.CertConfirmContent),
   ("rfc4210.RevAnnContent", Rfc4210.RevAnnContent),
   ("rfc4210.RevRepContent", Rfc4210.RevRepContent),
   ("rfc4210.KeyRecRepContent", Rfc4210.KeyRecRepContent),
   ("rfc4210.CertResponse", Rfc4210.CertResponse),
   ("rfc4210.CertRepMessage", Rfc4210.CertRepMessage),
   ("rfc4210.POPODecKeyChallContent", Rfc4210.POPODecKeyChallContent),
   ("rfc4210.OOBCertHash", Rfc4210.OOBCertHash),
   ("rfc4210.NestedMessageContent", Rfc4210.NestedMessageContent),
   ("rfc4210.DHBMParameter", Rfc4210.DHBMParameter),
   ("rfc4210.id_DHBasedMac", Rfc4210.id_DHBasedMac),
   ("rfc4210.PBMParameter", Rfc4210.PBMParameter),
   ("rfc4210.id_PasswordBasedMac", Rfc4210.id_PasswordBasedMac),
   ("rfc4210.PKIProtection", Rfc4210.PKIProtection),
   ("rfc4210.nestedMessageContent", Rfc4210.nestedMessageContent),
   ("rfc4210.PKIBody", Rfc4210.PKIBody),
   ("rfc4210.PKIHeader", Rfc4210.PKIHeader),
   ("rfc4210.ProtectedPart", Rfc4210.ProtectedPart),
   ("rfc4210.PKIMessage", Rfc4210.PKIMessage),
   ("rfc4210.PKIMessages", Rfc4210.PKIMessages)]

def Rfc4210.fills : List (String × Py.Proto) :=
  []

def Rfc4211.steps : List (String × Py.Obj) :=
  [("rfc4211.id_pkix", Rfc4211.id_pkix),
   ("rfc4211.id_pkip", Rfc4211.id_pkip),
   ("rfc4211.id_regCtrl", Rfc4211.id_regCtrl),
   ("rfc4211.SinglePubInfo__0", Rfc4211.SinglePubInfo__0),
   ("rfc4211.SinglePubInfo", Rfc4211.SinglePubInfo),
   ("rfc4211.UTF8Pairs", Rfc4211.UTF8Pairs),
   ("rfc4211.PKMACValue__0", Rfc4211.PKMACValue__0),
   ("rfc4211.PKMACValue", Rfc4211.PKMACValue),
   ("rfc4211.POPOSigningKeyInput__0", Rfc4211.POPOSigningKeyInput__0),
   ("rfc4211.POPOSigningKeyInput", Rfc4211.POPOSigningKeyInput),
   ("rfc4211.POPOSigningKey__0", Rfc4211.POPOSigningKey__0),
   ("rfc4211.POPOSigningKey", Rfc4211.POPOSigningKey),
   ("rfc4211.Attributes__0", Rfc4211.Attributes__0),
   ("rfc4211.Attributes", Rfc4211.Attributes),
   ("rfc4211.PrivateKeyInfo__0", Rfc4211.PrivateKeyInfo__0),
   ("rfc4211.PrivateKeyInfo", Rfc4211.PrivateKeyInfo),
   ("rfc4211.EncryptedValue__0", Rfc4211.EncryptedValue__0),
   ("rfc4211.EncryptedValue", Rfc4211.EncryptedValue),
   ("rfc4211.EncryptedKey__0", Rfc4211.EncryptedKey__0),
   ("rfc4211.EncryptedKey", Rfc4211.EncryptedKey),
   ("rfc4211.KeyGenParameters", Rfc4211.KeyGenParameters),
   ("rfc4211.PKIArchiveOptions__0", Rfc4211.PKIArchiveOptions__0),
   ("rfc4211.PKIArchiveOptions", Rfc4211.PKIArchiveOptions),
   ("rfc4211.id_regCtrl_authenticator", Rfc4211.id_regCtrl_authenticator),
   ("rfc4211.id_regInfo", Rfc4211.id_regInfo),
   ("rfc4211.id_regInfo_certReq", Rfc4211.id_regInfo_certReq),
   ("rfc4211.ProtocolEncrKey", Rfc4211.ProtocolEncrKey),
   ("rfc4211.Authenticator", Rfc4211.Authenticator),
   ("rfc4211.SubsequentMessage__0", Rfc4211.SubsequentMessage__0),
   ("rfc4211.SubsequentMessage", Rfc4211.SubsequentMessage),
   ("rfc4211.AttributeTypeAndValue__0", Rfc4211.AttributeTypeAndValue__0),
   ("rfc4211.AttributeTypeAndValue", Rfc4211.AttributeTypeAndValue),
   ("rfc4211.POPOPrivKey__0", Rfc4211.POPOPrivKey__0),
   ("rfc4211.POPOPrivKey", Rfc4211.POPOPrivKey),
   ("rfc4211.ProofOfPossession__0", Rfc4211.ProofOfPossession__0),
   ("rfc4211.ProofOfPossession", Rfc4211.ProofOfPossession),
   ("rfc4211.OptionalValidity__0", Rfc4211.OptionalValidity__0),
   ("rfc4211.OptionalValidity", Rfc4211.OptionalValidity),
   ("rfc4211.CertTemplate__0", Rfc4211.CertTemplate__0),
   ("rfc4211.CertTemplate", Rfc4211.CertTemplate),
   ("rfc4211.Controls__0", Rfc4211.Controls__0),
   ("rfc4211.Controls__1", Rfc4211.Controls__1),
   ("rfc4211.Controls", Rfc4211.Controls),
   ("rfc4211.CertRequest__0", Rfc4211.CertRequest__0),
   ("rfc4211.CertRequest", Rfc4211.CertRequest),
   ("rfc4211.CertReqMsg__0", Rfc4211.CertReqMsg__0),
   ("rfc4211.CertReqMsg", Rfc4211.CertReqMsg),
   ("rfc4211.CertReqMessages__0", Rfc4211.CertReqMessages__0),
   ("rfc4211.CertReqMessages__1", Rfc4211.CertReqMessages__1),
   ("rfc4211.CertReqMessages", Rfc4211.CertReqMessages),
   ("rfc4211.CertReq", Rfc4211.CertReq),
   ("rfc4211.id_regCtrl_pkiPublicationInfo", Rfc4211.id_regCtrl_pkiPublicationInfo),
   ("rfc4211.CertId__0", Rfc4211.CertId__0),
   ("rfc4211.CertId", Rfc4211.CertId),
   ("rfc4211.OldCertId", Rfc4211.OldCertId),
   ("rfc4211.PKIPublicationInfo__0", Rfc4211.PKIPublicationInfo__0),
   ("rfc4211.PKIPublicationInfo", Rfc4211.PKIPublicationInfo),
   ("rfc4211.EncKeyWithID__0", Rfc4211.EncKeyWithID__0),
   ("rfc4211.EncKeyWithID", Rfc4211.EncKeyWithID),
   ("rfc4211.id_regCtrl_protocolEncrKey", Rfc4211.id_regCtrl_protocolEncrKey),
   ("rfc4211.id_regCtrl_oldCertID", Rfc4211.id_regCtrl_oldCertID),
   ("rfc4211.id_smime", Rfc4211.id_smime),
   ("rfc4211.PBMParameter__0", Rfc4211.PBMParameter__0),
   ("rfc4211.PBMParameter", Rfc4211.PBMParameter),
   ("rfc4211.id_regCtrl_regToken", Rfc4211.id_regCtrl_regToken),
   ("rfc4211.id_regCtrl_pkiArchiveOptions", Rfc4211.id_regCtrl_pkiArchiveOptions),
   ("rfc4211.id_regInfo_utf8Pairs", Rfc4211.id_regInfo_utf8Pairs),
   ("rfc4211.id_ct", Rfc4211.id_ct),
   ("rfc4211.id_ct_encKeyWithID", Rfc4211.id_ct_encKeyWithID),
   ("rfc4211.RegToken", Rfc4211.RegToken)]

def Rfc4211.fills : List (String × Py.Proto) :=
  []

def Rfc4334.steps : List (String × Py.Obj) :=
  [("rfc4334.id_pe", Rfc4334.id_pe),
   ("rfc4334.id_kp", Rfc4334.id_kp),
   ("rfc4334.id_aca", Rfc4334.id_aca),
   ("rfc4334.id_kp_eapOverPPP", Rfc4334.id_kp_eapOverPPP),
   ("rfc4334.id_kp_eapOverLAN", Rfc4334.id_kp_eapOverLAN),
   ("rfc4334.id_pe_wlanSSID", Rfc4334.id_pe_wlanSSID),
   ("rfc4334.SSID", Rfc4334.SSID),
   ("rfc4334.SSIDList", Rfc4334.SSIDList),
   ("rfc4334.id_aca_wlanSSID", Rfc4334.id_aca_wlanSSID)]

def Rfc4334.fills : List (String × Py.Proto) :=
  []

def Rfc4357.steps : List (String × Py.Obj) :=
  [("rfc4357.AlgorithmIdentifier", Rfc4357.AlgorithmIdentifier),
   ("rfc4357.id_CryptoPro", Rfc4357.id_CryptoPro),
   ("rfc4357.id_CryptoPro_modules", Rfc4357.id_CryptoPro_modules),
   ("rfc4357.id_CryptoPro_extensions", Rfc4357.id_CryptoPro_extensions),
   ("rfc4357.id_CryptoPro_policyIds", Rfc4357.id_CryptoPro_policyIds),
   ("rfc4357.id_CryptoPro_policyQt", Rfc4357.id_CryptoPro_policyQt),
   ("rfc4357.cryptographic_Gost_Useful_Definitions", Rfc4357.cryptographic_Gost_Useful_Definitions),
   ("rfc4357.gostR3411_94_DigestSyntax", Rfc4357.gostR3411_94_DigestSyntax),
   ("rfc4357.gostR3410_94_PKISyntax", Rfc4357.gostR3410_94_PKISyntax),
   ("rfc4357.gostR3410_94_SignatureSyntax", Rfc4357.gostR3410_94_SignatureSyntax),
   ("rfc4357.gost28147_89_EncryptionSyntax", Rfc4357.gost28147_89_EncryptionSyntax),
   ("rfc4357.gostR3410_EncryptionSyntax", Rfc4357.gostR3410_EncryptionSyntax),
   ("rfc4357.gost28147_89_ParamSetSyntax", Rfc4357.gost28147_89_ParamSetSyntax),
   ("rfc4357.gostR3411_94_ParamSetSyntax", Rfc4357.gostR3411_94_ParamSetSyntax),
   ("rfc4357.gostR3410_94_ParamSetSyntax", Rfc4357.gostR3410_94_ParamSetSyntax),
   ("rfc4357.gostR3410_2001_PKISyntax", Rfc4357.gostR3410_2001_PKISyntax),
   ("rfc4357.gostR3410_2001_SignatureSyntax", Rfc4357.gostR3410_2001_SignatureSyntax),
   ("rfc4357.gostR3410_2001_ParamSetSyntax", Rfc4357.gostR3410_2001_ParamSetSyntax),
   ("rfc4357.gost_CryptoPro_ExtendedKeyUsage", Rfc4357.gost_CryptoPro_ExtendedKeyUsage),
   ("rfc4357.gost_CryptoPro_PrivateKey", Rfc4357.gost_CryptoPro_PrivateKey),
   ("rfc4357.gost_CryptoPro_PKIXCMP", Rfc4357.gost_CryptoPro_PKIXCMP),
   ("rfc4357.gost_CryptoPro_TLS", Rfc4357.gost_CryptoPro_TLS),
   ("rfc4357.gost_CryptoPro_Policy", Rfc4357.gost_CryptoPro_Policy),
   ("rfc4357.gost_CryptoPro_Constants", Rfc4357.gost_CryptoPro_Constants),
   ("rfc4357.id_CryptoPro_algorithms", Rfc4357.id_CryptoPro_algorithms),
   ("rfc4357.id_GostR3411_94_with_GostR3410_2001", Rfc4357.id_GostR3411_94_with_GostR3410_2001),
   ("rfc4357.id_GostR3411_94_with_GostR3410_94", Rfc4357.id_GostR3411_94_with_GostR3410_94),
   ("rfc4357.id_GostR3411_94", Rfc4357.id_GostR3411_94),
   ("rfc4357.id_Gost28147_89_None_KeyMeshing", Rfc4357.id_Gost28147_89_None_KeyMeshing),
   ("rfc4357.id_Gost28147_89_CryptoPro_KeyMeshing", Rfc4357.id_Gost28147_89_CryptoPro_KeyMeshing),
   ("rfc4357.id_GostR3410_2001", Rfc4357.id_GostR3410_2001),
   ("rfc4357.id_GostR3410_94", Rfc4357.id_GostR3410_94),
   ("rfc4357.id_Gost28147_89", Rfc4357.id_Gost28147_89),
   ("rfc4357.id_Gost28147_89_MAC", Rfc4357.id_Gost28147_89_MAC),
   ("rfc4357.id_CryptoPro_hashes", Rfc4357.id_CryptoPro_hashes),
   ("rfc4357.id_CryptoPro_encrypts", Rfc4357.id_CryptoPro_encrypts),
   ("rfc4357.id_CryptoPro_signs", Rfc4357.id_CryptoPro_signs),
   ("rfc4357.id_CryptoPro_exchanges", Rfc4357.id_CryptoPro_exchanges),
   ("rfc4357.id_CryptoPro_ecc_signs", Rfc4357.id_CryptoPro_ecc_signs),
   ("rfc4357.id_CryptoPro_ecc_exchanges", Rfc4357.id_CryptoPro_ecc_exchanges),
   ("rfc4357.id_CryptoPro_private_keys", Rfc4357.id_CryptoPro_private_keys),
   ("rfc4357.id_CryptoPro_pkixcmp_infos", Rfc4357.id_CryptoPro_pkixcmp_infos),
   ("rfc4357.id_CryptoPro_audit_service_types", Rfc4357.id_CryptoPro_audit_service_types),
   ("rfc4357.id_CryptoPro_audit_record_types", Rfc4357.id_CryptoPro_audit_record_types),
   ("rfc4357.id_CryptoPro_attributes", Rfc4357.id_CryptoPro_attributes),
   ("rfc4357.id_CryptoPro_name_service_types", Rfc4357.id_CryptoPro_name_service_types),
   ("rfc4357.id_GostR3410_2001DH", Rfc4357.id_GostR3410_2001DH),
   ("rfc4357.id_GostR3410_94DH", Rfc4357.id_GostR3410_94DH),
   ("rfc4357.id_Gost28147_89_TestParamSet", Rfc4357.id_Gost28147_89_TestParamSet),
   ("rfc4357.id_Gost28147_89_CryptoPro_A_ParamSet", Rfc4357.id_Gost28147_89_CryptoPro_A_ParamSet),
   ("rfc4357.id_Gost28147_89_CryptoPro_B_ParamSet", Rfc4357.id_Gost28147_89_CryptoPro_B_ParamSet),
   ("rfc4357.id_Gost28147_89_CryptoPro_C_ParamSet", Rfc4357.id_Gost28147_89_CryptoPro_C_ParamSet),
   ("rfc4357.id_Gost28147_89_CryptoPro_D_ParamSet", Rfc4357.id_Gost28147_89_CryptoPro_D_ParamSet),
   ("rfc4357.id_Gost28147_89_CryptoPro_Oscar_1_1_ParamSet", Rfc4357.id_Gost28147_89_CryptoPro_Oscar_1_1_ParamSet),
   ("rfc4357.id_Gost28147_89_CryptoPro_Oscar_1_0_ParamSet", Rfc4357.id_Gost28147_89_CryptoPro_Oscar_1_0_ParamSet),
   ("rfc4357.id_Gost28147_89_CryptoPro_RIC_1_ParamSet", Rfc4357.id_Gost28147_89_CryptoPro_RIC_1_ParamSet),
   ("rfc4357.id_GostR3410_2001_TestParamSet", Rfc4357.id_GostR3410_2001_TestParamSet),
   ("rfc4357.id_GostR3410_2001_CryptoPro_A_ParamSet", Rfc4357.id_GostR3410_2001_CryptoPro_A_ParamSet),
   ("rfc4357.id_GostR3410_2001_CryptoPro_B_ParamSet", Rfc4357.id_GostR3410_2001_CryptoPro_B_ParamSet),
   ("rfc4357.id_GostR3410_2001_CryptoPro_C_ParamSet", Rfc4357.id_GostR3410_2001_CryptoPro_C_ParamSet),
   ("rfc4357.id_GostR3410_2001_CryptoPro_XchA_ParamSet", Rfc4357.id_GostR3410_2001_CryptoPro_XchA_ParamSet),
   ("rfc4357.id_GostR3410_2001_CryptoPro_XchB_ParamSet", Rfc4357.id_GostR3410_2001_CryptoPro_XchB_ParamSet),
   ("rfc4357.id_GostR3410_94_TestParamSet", Rfc4357.id_GostR3410_94_TestParamSet),
   ("rfc4357.id_GostR3410_94_CryptoPro_A_ParamSet", Rfc4357.id_GostR3410_94_CryptoPro_A_ParamSet),
   ("rfc4357.id_GostR3410_94_CryptoPro_B_ParamSet", Rfc4357.id_GostR3410_94_CryptoPro_B_ParamSet),
   ("rfc4357.id_GostR3410_94_CryptoPro_C_ParamSet", Rfc4357.id_GostR3410_94_CryptoPro_C_ParamSet),
   ("rfc4357.id_GostR3410_94_CryptoPro_D_ParamSet", Rfc4357.id_GostR3410_94_CryptoPro_D_ParamSet),
   ("rfc4357.id_GostR3410_94_CryptoPro_XchA_ParamSet", Rfc4357.id_GostR3410_94_CryptoPro_XchA_ParamSet),
   ("rfc4357.id_GostR3410_94_CryptoPro_XchB_ParamSet", Rfc4357.id_GostR3410_94_CryptoPro_XchB_ParamSet),
   ("rfc4357.id_GostR3410_94_CryptoPro_XchC_ParamSet", Rfc4357.id_GostR3410_94_CryptoPro_XchC_ParamSet),
   ("rfc4357.id_GostR3410_94_a", Rfc4357.id_GostR3410_94_a),
   ("rfc4357.id_GostR3410_94_aBis", Rfc4357.id_GostR3410_94_aBis),
   ("rfc4357.id_GostR3410_94_b", Rfc4357.id_GostR3410_94_b),
   ("rfc4357.id_GostR3410_94_bBis", Rfc4357.id_GostR3410_94_bBis),
   ("rfc4357.id_GostR3411_94_TestParamSet", Rfc4357.id_GostR3411_94_TestParamSet),
   ("rfc4357.id_GostR3411_94_CryptoProParamSet", Rfc4357.id_GostR3411_94_CryptoProParamSet),
   ("rfc4357.Gost28147_89_ParamSet__0", Rfc4357.Gost28147_89_ParamSet__0),
   ("rfc4357.Gost28147_89_ParamSet", Rfc4357.Gost28147_89_ParamSet),
   ("rfc4357.Gost28147_89_BlobParameters__0", Rfc4357.Gost28147_89_BlobParameters__0),
   ("rfc4357.Gost28147_89_BlobParameters", Rfc4357.Gost28147_89_BlobParameters),
   ("rfc4357.Gost28147_89_MAC__0", Rfc4357.Gost28147_89_MAC__0),
   ("rfc4357.Gost28147_89_MAC", Rfc4357.Gost28147_89_MAC),
   ("rfc4357.Gost28147_89_Key__0", Rfc4357.Gost28147_89_Key__0),
   ("rfc4357.Gost28147_89_Key", Rfc4357.Gost28147_89_Key),
   ("rfc4357.Gost28147_89_EncryptedKey__0", Rfc4357.Gost28147_89_EncryptedKey__0),
   ("rfc4357.Gost28147_89_EncryptedKey", Rfc4357.Gost28147_89_EncryptedKey),
   ("rfc4357.Gost28147_89_IV__0", Rfc4357.Gost28147_89_IV__0),
   ("rfc4357.Gost28147_89_IV", Rfc4357.Gost28147_89_IV),
   ("rfc4357.Gost28147_89_UZ__0", Rfc4357.Gost28147_89_UZ__0),
   ("rfc4357.Gost28147_89_UZ", Rfc4357.Gost28147_89_UZ),
   ("rfc4357.Gost28147_89_ParamSetParameters__0", Rfc4357.Gost28147_89_ParamSetParameters__0),
   ("rfc4357.Gost28147_89_ParamSetParameters", Rfc4357.Gost28147_89_ParamSetParameters),
   ("rfc4357.Gost28147_89_Parameters__0", Rfc4357.Gost28147_89_Parameters__0),
   ("rfc4357.Gost28147_89_Parameters", Rfc4357.Gost28147_89_Parameters),
   ("rfc4357.GostR3410_2001_CertificateSignature__0", Rfc4357.GostR3410_2001_CertificateSignature__0),
   ("rfc4357.GostR3410_2001_CertificateSignature", Rfc4357.GostR3410_2001_CertificateSignature),
   ("rfc4357.GostR3410_2001_ParamSetParameters__0", Rfc4357.GostR3410_2001_ParamSetParameters__0),
   ("rfc4357.GostR3410_2001_ParamSetParameters", Rfc4357.GostR3410_2001_ParamSetParameters),
   ("rfc4357.GostR3410_2001_PublicKey__0", Rfc4357.GostR3410_2001_PublicKey__0),
   ("rfc4357.GostR3410_2001_PublicKey", Rfc4357.GostR3410_2001_PublicKey),
   ("rfc4357.GostR3410_2001_PublicKeyParameters__0", Rfc4357.GostR3410_2001_PublicKeyParameters__0),
   ("rfc4357.GostR3410_2001_PublicKeyParameters", Rfc4357.GostR3410_2001_PublicKeyParameters),
   ("rfc4357.GostR3410_94_CertificateSignature__0", Rfc4357.GostR3410_94_CertificateSignature__0),
   ("rfc4357.GostR3410_94_CertificateSignature", Rfc4357.GostR3410_94_CertificateSignature),
   ("rfc4357.GostR3410_94_ParamSetParameters_t__0", Rfc4357.GostR3410_94_ParamSetParameters_t__0),
   ("rfc4357.GostR3410_94_ParamSetParameters_t", Rfc4357.GostR3410_94_ParamSetParameters_t),
   ("rfc4357.GostR3410_94_ParamSetParameters__0", Rfc4357.GostR3410_94_ParamSetParameters__0),
   ("rfc4357.GostR3410_94_ParamSetParameters", Rfc4357.GostR3410_94_ParamSetParameters),
   ("rfc4357.GostR3410_94_PublicKey__0", Rfc4357.GostR3410_94_PublicKey__0),
   ("rfc4357.GostR3410_94_PublicKey", Rfc4357.GostR3410_94_PublicKey),
   ("rfc4357.GostR3410_94_PublicKeyParameters__0", Rfc4357.GostR3410_94_PublicKeyParameters__0),
   ("rfc4357.GostR3410_94_PublicKeyParameters", Rfc4357.GostR3410_94_PublicKeyParameters),
   ("rfc4357.GostR3410_94_ValidationBisParameters_c__0", Rfc4357.GostR3410_94_ValidationBisParameters_c__0),
   ("rfc4357.GostR3410_94_ValidationBisParameters_c", Rfc4357.GostR3410_94_ValidationBisParameters_c),
   ("rfc4357.GostR3410_94_ValidationBisParameters__0", Rfc4357.GostR3410_94_ValidationBisParameters__0),
   ("rfc4357.GostR3410_94_ValidationBisParameters", Rfc4357.GostR3410_94_ValidationBisParameters),
   ("rfc4357.GostR3410_94_ValidationParameters_c__0", Rfc4357.GostR3410_94_ValidationParameters_c__0),
   ("rfc4357.GostR3410_94_ValidationParameters_c", Rfc4357.GostR3410_94_ValidationParameters_c),
   ("rfc4357.GostR3410_94_ValidationParameters__0", Rfc4357.GostR3410_94_ValidationParameters__0),
   ("rfc4357.GostR3410_94_ValidationParameters", Rfc4357.GostR3410_94_ValidationParameters),
   ("rfc4357.GostR3411_94_Digest__0", Rfc4357.GostR3411_94_Digest__0),
   ("rfc4357.GostR3411_94_Digest", Rfc4357.GostR3411_94_Digest),
   ("rfc4357.GostR3411_94_DigestParameters__0", Rfc4357.GostR3411_94_DigestParameters__0),
   ("rfc4357.GostR3411_94_DigestParameters", Rfc4357.GostR3411_94_DigestParameters),
   ("rfc4357.GostR3411_94_ParamSetParameters__0", Rfc4357.GostR3411_94_ParamSetParameters__0),
   ("rfc4357.GostR3411_94_ParamSetParameters", Rfc4357.GostR3411_94_ParamSetParameters)]

def Rfc4357.fills : List (String × Py.Proto) :=
  []

def Rfc4387.steps : List (String × Py.Obj) :=
  [("rfc4387.id_ad", Rfc4387.id_ad),
   ("rfc4387.id_ad_http_certs", Rfc4387.id_ad_http_certs),
   ("rfc4387.id_ad_http_crls", Rfc4387.id_ad_http_crls)]

def Rfc4387.fills : List (String × Py.Proto) :=
  []

def Rfc4476.steps : List (String × Py.Obj) :=
  [("rfc4476.PolicyQualifierId", Rfc4476.PolicyQualifierId),
   ("rfc4476.PolicyQualifierInfo", Rfc4476.PolicyQualifierInfo),
   ("rfc4476.UserNotice", Rfc4476.UserNotice),
   ("rfc4476.id_pkix", Rfc4476.id_pkix),
   ("rfc4476.id_pe", Rfc4476.id_pe),
   ("rfc4476.id_pe_acPolicies", Rfc4476.id_pe_acPolicies),
   ("rfc4476.id_qt", Rfc4476.id_qt),
   ("rfc4476.id_qt_acps", Rfc4476.id_qt_acps),
   ("rfc4476.id_qt_acunotice", Rfc4476.id_qt_acunotice),
   ("rfc4476.ACUserNotice", Rfc4476.ACUserNotice),
   ("rfc4476.ACPSuri", Rfc4476.ACPSuri),
   ("rfc4476.AcPolicyId", Rfc4476.AcPolicyId),
   ("rfc4476.PolicyInformation", Rfc4476.PolicyInformation),
   ("rfc4476.AcPoliciesSyntax", Rfc4476.AcPoliciesSyntax)]

def Rfc4476.fills : List (String × Py.Proto) :=
  []

def Rfc4490.steps : List (String × Py.Obj) :=
  [("rfc4490.id_CryptoPro_algorithms", Rfc4490.id_CryptoPro_algorithms),
   ("rfc4490.id_GostR3410_94", Rfc4490.id_GostR3410_94),
   ("rfc4490.id_GostR3410_2001", Rfc4490.id_GostR3410_2001),
   ("rfc4490.Gost28147_89_ParamSet", Rfc4490.Gost28147_89_ParamSet),
   ("rfc4490.Gost28147_89_EncryptedKey", Rfc4490.Gost28147_89_EncryptedKey),
   ("rfc4490.GostR3410_94_PublicKeyParameters", Rfc4490.GostR3410_94_PublicKeyParameters),
   ("rfc4490.GostR3410_2001_PublicKeyParameters", Rfc4490.GostR3410_2001_PublicKeyParameters),
   ("rfc4490.SubjectPublicKeyInfo", Rfc4490.SubjectPublicKeyInfo),
   ("rfc4490.Gost28147_89_KeyWrapParameters", Rfc4490.Gost28147_89_KeyWrapParameters),
   ("rfc4490.id_Gost28147_89_CryptoPro_KeyWrap", Rfc4490.id_Gost28147_89_CryptoPro_KeyWrap),
   ("rfc4490.id_Gost28147_89_None_KeyWrap", Rfc4490.id_Gost28147_89_None_KeyWrap),
   ("rfc4490.id_GostR3410_2001_CryptoPro_ESDH", Rfc4490.id_GostR3410_2001_CryptoPro_ESDH),
   ("rfc4490.id_GostR3410_94_CryptoPro_ESDH", Rfc4490.id_GostR3410_94_CryptoPro_ESDH),
   ("rfc4490.id_GostR3410_2001_KeyTransportSMIMECapability", Rfc4490.id_GostR3410_2001_KeyTransportSMIMECapability),
   ("rfc4490.id_GostR3410_94_KeyTransportSMIMECapability", Rfc4490.id_GostR3410_94_KeyTransportSMIMECapability),
   ("rfc4490.GostR3410_TransportParameters", Rfc4490.GostR3410_TransportParameters),
   ("rfc4490.GostR3410_KeyTransport", Rfc4490.GostR3410_KeyTransport),
   ("rfc4490.GostR3410_94_Signature", Rfc4490.GostR3410_94_Signature),
   ("rfc4490.GostR3410_2001_Signature", Rfc4490.GostR3410_2001_Signature)]

def Rfc4490.fills : List (String × Py.Proto) :=
  []

def Rfc4491.steps : List (String × Py.Obj) :=
  [("rfc4491.id_GostR3411_94_with_GostR3410_94", Rfc4491.id_GostR3411_94_with_GostR3410_94),
   ("rfc4491.id_GostR3411_94_with_GostR3410_2001", Rfc4491.id_GostR3411_94_with_GostR3410_2001),
   ("rfc4491.id_GostR3410_94", Rfc4491.id_GostR3410_94),
   ("rfc4491.GostR3410_2001_PublicKey", Rfc4491.GostR3410_2001_PublicKey),
   ("rfc4491.GostR3410_2001_PublicKeyParameters", Rfc4491.GostR3410_2001_PublicKeyParameters),
   ("rfc4491.id_GostR3410_2001", Rfc4491.id_GostR3410_2001),
   ("rfc4491.GostR3410_94_PublicKey", Rfc4491.GostR3410_94_PublicKey),
   ("rfc4491.GostR3410_94_PublicKeyParameters", Rfc4491.GostR3410_94_PublicKeyParameters)]

def Rfc4491.fills : List (String × Py.Proto) :=
  []

def Rfc4683.steps : List (String × Py.Obj) :=
  [("rfc4683.HashContent", Rfc4683.HashContent),
   ("rfc4683.id_pkix", Rfc4683.id_pkix),
   ("rfc4683.id_on", Rfc4683.id_on),
   ("rfc4683.id_on_SIM", Rfc4683.id_on_SIM),
   ("rfc4683.SIM", Rfc4683.SIM),
   ("rfc4683.id_pkip", Rfc4683.id_pkip),
   ("rfc4683.id_regEPEPSI", Rfc4683.id_regEPEPSI),
   ("rfc4683.EncryptedPEPSI", Rfc4683.EncryptedPEPSI)]

def Rfc4683.fills : List (String × Py.Proto) :=
  []

def Rfc4985.steps : List (String × Py.Obj) :=
  [("rfc4985.id_pkix", Rfc4985.id_pkix),
   ("rfc4985.id_on", Rfc4985.id_on),
   ("rfc4985.id_on_dnsSRV", Rfc4985.id_on_dnsSRV),
   ("rfc4985.SRVName", Rfc4985.SRVName)]

def Rfc4985.fills : List (String × Py.Proto) :=
  [("rfc4985.srvName__0", Rfc4985.srvName__0),
   ("rfc4985.srvName__1", Rfc4985.srvName__1),
   ("rfc4985.srvName", Rfc4985.srvName)]

def Rfc5035.steps : List (String × Py.Obj) :=
  [("rfc5035.ContentType", Rfc5035.ContentType),
   ("rfc5035.IssuerAndSerialNumber", Rfc5035.IssuerAndSerialNumber),
   ("rfc5035.SubjectKeyIdentifier", Rfc5035.SubjectKeyIdentifier),
   ("rfc5035.AlgorithmIdentifier", Rfc5035.AlgorithmIdentifier),
   ("rfc5035.PolicyInformation", Rfc5035.PolicyInformation),
   ("rfc5035.GeneralNames", Rfc5035.GeneralNames),
   ("rfc5035.CertificateSerialNumber", Rfc5035.CertificateSerialNumber),
   ("rfc5035.id_aa_signingCertificate", Rfc5035.id_aa_signingCertificate),
   ("rfc5035.id_aa_signingCertificateV2", Rfc5035.id_aa_signingCertificateV2),
   ("rfc5035.Hash", Rfc5035.Hash),
   ("rfc5035.IssuerSerial", Rfc5035.IssuerSerial),
   ("rfc5035.ESSCertID", Rfc5035.ESSCertID),
   ("rfc5035.SigningCertificate", Rfc5035.SigningCertificate),
   ("rfc5035.ESSCertIDv2__0", Rfc5035.ESSCertIDv2__0),
   ("rfc5035.ESSCertIDv2", Rfc5035.ESSCertIDv2),
   ("rfc5035.SigningCertificateV2__0", Rfc5035.SigningCertificateV2__0),
   ("rfc5035.SigningCertificateV2", Rfc5035.SigningCertificateV2),
   ("rfc5035.id_aa_mlExpandHistory", Rfc5035.id_aa_mlExpandHistory),
   ("rfc5035.ub_ml_expansion_history", Rfc5035.ub_ml_expansion_history),
   ("rfc5035.EntityIdentifier", Rfc5035.EntityIdentifier),
   ("rfc5035.MLReceiptPolicy", Rfc5035.MLReceiptPolicy),
   ("rfc5035.MLData", Rfc5035.MLData),
   ("rfc5035.MLExpansionHistory", Rfc5035.MLExpansionHistory),
   ("rfc5035.id_aa_securityLabel", Rfc5035.id_aa_securityLabel),
   ("rfc5035.ub_privacy_mark_length", Rfc5035.ub_privacy_mark_length),
   ("rfc5035.ub_security_categories", Rfc5035.ub_security_categories),
   ("rfc5035.ub_integer_options", Rfc5035.ub_integer_options),
   ("rfc5035.ESSPrivacyMark", Rfc5035.ESSPrivacyMark),
   ("rfc5035.SecurityClassification", Rfc5035.SecurityClassification),
   ("rfc5035.SecurityPolicyIdentifier", Rfc5035.SecurityPolicyIdentifier),
   ("rfc5035.SecurityCategory", Rfc5035.SecurityCategory),
   ("rfc5035.SecurityCategories", Rfc5035.SecurityCategories),
   ("rfc5035.ESSSecurityLabel", Rfc5035.ESSSecurityLabel),
   ("rfc5035.id_aa_equivalentLabels", Rfc5035.id_aa_equivalentLabels),
   ("rfc5035.EquivalentLabels", Rfc5035.EquivalentLabels),
   ("rfc5035.id_aa_contentIdentifier", Rfc5035.id_aa_contentIdentifier),
   ("rfc5035.ContentIdentifier", Rfc5035.ContentIdentifier),
   ("rfc5035.id_aa_contentReference", Rfc5035.id_aa_contentReference),
   ("rfc5035.ContentReference", Rfc5035.ContentReference),
   ("rfc5035.id_aa_msgSigDigest", Rfc5035.id_aa_msgSigDigest),
   ("rfc5035.MsgSigDigest", Rfc5035.MsgSigDigest),
   ("rfc5035.id_aa_contentHint", Rfc5035.id_aa_contentHint),
   ("rfc5035.ContentHints", Rfc5035.ContentHints),
   ("rfc5035.AllOrFirstTier", Rfc5035.AllOrFirstTier),
   ("rfc5035.ReceiptsFrom", Rfc5035.ReceiptsFrom),
   ("rfc5035.id_aa_receiptRequest", Rfc5035.id_aa_receiptRequest),
   ("rfc5035.ub_receiptsTo__0", Rfc5035.ub_receiptsTo__0),
   ("rfc5035.ReceiptRequest__0", Rfc5035.ReceiptRequest__0),
   ("rfc5035.ESSVersion", Rfc5035.ESSVersion),
   ("rfc5035.id_ct_receipt", Rfc5035.id_ct_receipt),
   ("rfc5035.Receipt", Rfc5035.Receipt),
   ("rfc5035.ub_receiptsTo", Rfc5035.ub_receiptsTo),
   ("rfc5035.ReceiptRequest", Rfc5035.ReceiptRequest)]

def Rfc5035.fills : List (String × Py.Proto) :=
  [("rfc5035.sha256AlgId__0", Rfc5035.sha256AlgId__0),
   ("rfc5035.sha256AlgId__1", Rfc5035.sha256AlgId__1),
   ("rfc5035.sha256AlgId", Rfc5035.sha256AlgId)]

def Rfc5083.steps : List (String × Py.Obj) :=
  [("rfc5083.id_ct_authEnvelopedData", Rfc5083.id_ct_authEnvelopedData),
   ("rfc5083.AuthEnvelopedData__0", Rfc5083.AuthEnvelopedData__0),
   ("rfc5083.AuthEnvelopedData", Rfc5083.AuthEnvelopedData)]

def Rfc5083.fills : List (String × Py.Proto) :=
  []

def Rfc5084.steps : List (String × Py.Obj) :=
  [("rfc5084.AES_CCM_ICVlen__0", Rfc5084.AES_CCM_ICVlen__0),
   ("rfc5084.AES_GCM_ICVlen__0", Rfc5084.AES_GCM_ICVlen__0),
   ("rfc5084.AES_CCM_ICVlen", Rfc5084.AES_CCM_ICVlen),
   ("rfc5084.AES_GCM_ICVlen", Rfc5084.AES_GCM_ICVlen),
   ("rfc5084.CCMParameters__0", Rfc5084.CCMParameters__0),
   ("rfc5084.CCMParameters", Rfc5084.CCMParameters),
   ("rfc5084.GCMParameters__0", Rfc5084.GCMParameters__0),
   ("rfc5084.GCMParameters", Rfc5084.GCMParameters),
   ("rfc5084.aes", Rfc5084.aes),
   ("rfc5084.id_aes128_CCM", Rfc5084.id_aes128_CCM),
   ("rfc5084.id_aes128_GCM", Rfc5084.id_aes128_GCM),
   ("rfc5084.id_aes192_CCM", Rfc5084.id_aes192_CCM),
   ("rfc5084.id_aes192_GCM", Rfc5084.id_aes192_GCM),
   ("rfc5084.id_aes256_CCM", Rfc5084.id_aes256_CCM),
   ("rfc5084.id_aes256_GCM", Rfc5084.id_aes256_GCM)]

def Rfc5084.fills : List (String × Py.Proto) :=
  []

def Rfc5126.steps : List (String × Py.Obj) :=
  [("rfc5126.ContentInfo", Rfc5126.ContentInfo),
   ("rfc5126.ContentType", Rfc5126.ContentType),
   ("rfc5126.SignedData", Rfc5126.SignedData),
   ("rfc5126.EncapsulatedContentInfo", Rfc5126.EncapsulatedContentInfo),
   ("rfc5126.SignerInfo", Rfc5126.SignerInfo),
   ("rfc5126.MessageDigest", Rfc5126.MessageDigest),
   ("rfc5126.SigningTime", Rfc5126.SigningTime),
   ("rfc5126.Countersignature", Rfc5126.Countersignature),
   ("rfc5126.id_data", Rfc5126.id_data),
   ("rfc5126.id_signedData", Rfc5126.id_signedData),
   ("rfc5126.id_contentType", Rfc5126.id_contentType),
   ("rfc5126.id_messageDigest", Rfc5126.id_messageDigest),
   ("rfc5126.id_signingTime", Rfc5126.id_signingTime),
   ("rfc5126.id_countersignature", Rfc5126.id_countersignature),
   ("rfc5126.SigningCertificate", Rfc5126.SigningCertificate),
   ("rfc5126.IssuerSerial", Rfc5126.IssuerSerial),
   ("rfc5126.ContentReference", Rfc5126.ContentReference),
   ("rfc5126.ContentIdentifier", Rfc5126.ContentIdentifier),
   ("rfc5126.id_aa_contentReference", Rfc5126.id_aa_contentReference),
   ("rfc5126.id_aa_contentIdentifier", Rfc5126.id_aa_contentIdentifier),
   ("rfc5126.id_aa_signingCertificate", Rfc5126.id_aa_signingCertificate),
   ("rfc5126.id_aa_signingCertificateV2", Rfc5126.id_aa_signingCertificateV2),
   ("rfc5126.Certificate", Rfc5126.Certificate),
   ("rfc5126.AlgorithmIdentifier", Rfc5126.AlgorithmIdentifier),
   ("rfc5126.CertificateList", Rfc5126.CertificateList),
   ("rfc5126.Name", Rfc5126.Name),
   ("rfc5126.Attribute", Rfc5126.Attribute),
   ("rfc5126.GeneralNames", Rfc5126.GeneralNames),
   ("rfc5126.GeneralName", Rfc5126.GeneralName),
   ("rfc5126.PolicyInformation", Rfc5126.PolicyInformation),
   ("rfc5126.DirectoryString", Rfc5126.DirectoryString),
   ("rfc5126.AttributeCertificate", Rfc5126.AttributeCertificate),
   ("rfc5126.BasicOCSPResponse", Rfc5126.BasicOCSPResponse),
   ("rfc5126.ResponderID", Rfc5126.ResponderID),
   ("rfc5126.TimeStampToken", Rfc5126.TimeStampToken),
   ("rfc5126.id_etsi_es_IDUP_Mechanism_v1", Rfc5126.id_etsi_es_IDUP_Mechanism_v1),
   ("rfc5126.id_aa_ets_otherSigCert", Rfc5126.id_aa_ets_otherSigCert),
   ("rfc5126.OtherHashValue", Rfc5126.OtherHashValue),
   ("rfc5126.OtherHashAlgAndValue", Rfc5126.OtherHashAlgAndValue),
   ("rfc5126.OtherHash", Rfc5126.OtherHash),
   ("rfc5126.OtherCertID", Rfc5126.OtherCertID),
   ("rfc5126.OtherSigningCertificate", Rfc5126.OtherSigningCertificate),
   ("rfc5126.id_aa_ets_sigPolicyId", Rfc5126.id_aa_ets_sigPolicyId),
   ("rfc5126.SigPolicyId", Rfc5126.SigPolicyId),
   ("rfc5126.SigPolicyHash", Rfc5126.SigPolicyHash),
   ("rfc5126.SigPolicyQualifierId", Rfc5126.SigPolicyQualifierId),
   ("rfc5126.SigPolicyQualifierInfo", Rfc5126.SigPolicyQualifierInfo),
   ("rfc5126.SignaturePolicyId", Rfc5126.SignaturePolicyId),
   ("rfc5126.SignaturePolicyImplied", Rfc5126.SignaturePolicyImplied),
   ("rfc5126.SignaturePolicy", Rfc5126.SignaturePolicy),
   ("rfc5126.id_spq_ets_unotice", Rfc5126.id_spq_ets_unotice),
   ("rfc5126.DisplayText", Rfc5126.DisplayText),
   ("rfc5126.NoticeReference", Rfc5126.NoticeReference),
   ("rfc5126.SPUserNotice", Rfc5126.SPUserNotice),
   ("rfc5126.id_spq_ets_uri", Rfc5126.id_spq_ets_uri),
   ("rfc5126.SPuri", Rfc5126.SPuri),
   ("rfc5126.id_aa_ets_commitmentType", Rfc5126.id_aa_ets_commitmentType),
   ("rfc5126.CommitmentTypeIdentifier", Rfc5126.CommitmentTypeIdentifier),
   ("rfc5126.CommitmentTypeQualifier", Rfc5126.CommitmentTypeQualifier),
   ("rfc5126.CommitmentTypeIndication", Rfc5126.CommitmentTypeIndication),
   ("rfc5126.id_cti_ets_proofOfOrigin", Rfc5126.id_cti_ets_proofOfOrigin),
   ("rfc5126.id_cti_ets_proofOfReceipt", Rfc5126.id_cti_ets_proofOfReceipt),
   ("rfc5126.id_cti_ets_proofOfDelivery", Rfc5126.id_cti_ets_proofOfDelivery),
   ("rfc5126.id_cti_ets_proofOfSender", Rfc5126.id_cti_ets_proofOfSender),
   ("rfc5126.id_cti_ets_proofOfApproval", Rfc5126.id_cti_ets_proofOfApproval),
   ("rfc5126.id_cti_ets_proofOfCreation", Rfc5126.id_cti_ets_proofOfCreation),
   ("rfc5126.id_aa_ets_signerLocation", Rfc5126.id_aa_ets_signerLocation),
   ("rfc5126.PostalAddress", Rfc5126.PostalAddress),
   ("rfc5126.SignerLocation", Rfc5126.SignerLocation),
   ("rfc5126.id_aa_signatureTimeStampToken", Rfc5126.id_aa_signatureTimeStampToken),
   ("rfc5126.SignatureTimeStampToken", Rfc5126.SignatureTimeStampToken),
   ("rfc5126.id_aa_ets_contentTimestamp", Rfc5126.id_aa_ets_contentTimestamp),
   ("rfc5126.ContentTimestamp", Rfc5126.ContentTimestamp),
   ("rfc5126.id_aa_ets_signerAttr", Rfc5126.id_aa_ets_signerAttr),
   ("rfc5126.ClaimedAttributes", Rfc5126.ClaimedAttributes),
   ("rfc5126.CertifiedAttributes", Rfc5126.CertifiedAttributes),
   ("rfc5126.SignerAttribute", Rfc5126.SignerAttribute),
   ("rfc5126.id_aa_ets_certificateRefs", Rfc5126.id_aa_ets_certificateRefs),
   ("rfc5126.CompleteCertificateRefs", Rfc5126.CompleteCertificateRefs),
   ("rfc5126.id_aa_ets_revocationRefs", Rfc5126.id_aa_ets_revocationRefs),
   ("rfc5126.CrlIdentifier", Rfc5126.CrlIdentifier),
   ("rfc5126.CrlValidatedID", Rfc5126.CrlValidatedID),
   ("rfc5126.CRLListID", Rfc5126.CRLListID),
   ("rfc5126.OcspIdentifier", Rfc5126.OcspIdentifier),
   ("rfc5126.OcspResponsesID", Rfc5126.OcspResponsesID),
   ("rfc5126.OcspListID", Rfc5126.OcspListID),
   ("rfc5126.OtherRevRefType", Rfc5126.OtherRevRefType),
   ("rfc5126.OtherRevRefs", Rfc5126.OtherRevRefs),
   ("rfc5126.CrlOcspRef", Rfc5126.CrlOcspRef),
   ("rfc5126.CompleteRevocationRefs", Rfc5126.CompleteRevocationRefs),
   ("rfc5126.id_aa_ets_certValues", Rfc5126.id_aa_ets_certValues),
   ("rfc5126.CertificateValues", Rfc5126.CertificateValues),
   ("rfc5126.id_aa_ets_revocationValues", Rfc5126.id_aa_ets_revocationValues),
   ("rfc5126.OtherRevValType", Rfc5126.OtherRevValType),
   ("rfc5126.OtherRevVals", Rfc5126.OtherRevVals),
   ("rfc5126.RevocationValues", Rfc5126.RevocationValues),
   ("rfc5126.id_aa_ets_escTimeStamp", Rfc5126.id_aa_ets_escTimeStamp),
   ("rfc5126.ESCTimeStampToken", Rfc5126.ESCTimeStampToken),
   ("rfc5126.id_aa_ets_certCRLTimestamp", Rfc5126.id_aa_ets_certCRLTimestamp),
   ("rfc5126.TimestampedCertsCRLs", Rfc5126.TimestampedCertsCRLs),
   ("rfc5126.id_aa_ets_archiveTimestampV2", Rfc5126.id_aa_ets_archiveTimestampV2),
   ("rfc5126.ArchiveTimeStampToken", Rfc5126.ArchiveTimeStampToken),
   ("rfc5126.id_aa_ets_attrCertificateRefs", Rfc5126.id_aa_ets_attrCertificateRefs),
   ("rfc5126.AttributeCertificateRefs", Rfc5126.AttributeCertificateRefs),
   ("rfc5126.id_aa_ets_attrRevocationRefs", Rfc5126.id_aa_ets_attrRevocationRefs),
   ("rfc5126.AttributeRevocationRefs", Rfc5126.AttributeRevocationRefs)]

def Rfc5126.fills : List (String × Py.Proto) :=
  [("rfc5126.noticeToUser__0", Rfc5126.noticeToUser__0),
   ("rfc5126.noticeToUser__1", Rfc5126.noticeToUser__1),
   ("rfc5126.noticeToUser", Rfc5126.noticeToUser),
   ("rfc5126.pointerToSigPolSpec__0", Rfc5126.pointerToSigPolSpec__0),
   ("rfc5126.pointerToSigPolSpec__1", Rfc5126.pointerToSigPolSpec__1),
   ("rfc5126.pointerToSigPolSpec", Rfc5126.pointerToSigPolSpec)]

def Rfc5208.steps : List (String × Py.Obj) :=
  [("rfc5208.KeyEncryptionAlgorithms", Rfc5208.KeyEncryptionAlgorithms),
   ("rfc5208.PrivateKeyAlgorithms", Rfc5208.PrivateKeyAlgorithms),
   ("rfc5208.EncryptedData", Rfc5208.EncryptedData),
   ("rfc5208.EncryptedPrivateKeyInfo", Rfc5208.EncryptedPrivateKeyInfo),
   ("rfc5208.PrivateKey", Rfc5208.PrivateKey),
   ("rfc5208.Attributes", Rfc5208.Attributes),
   ("rfc5208.Version", Rfc5208.Version),
   ("rfc5208.PrivateKeyInfo", Rfc5208.PrivateKeyInfo)]

def Rfc5208.fills : List (String × Py.Proto) :=
  []

def Rfc5275.steps : List (String × Py.Obj) :=
  [("rfc5275.id_aes128_wrap", Rfc5275.id_aes128_wrap),
   ("rfc5275.AlgorithmIdentifier", Rfc5275.AlgorithmIdentifier),
   ("rfc5275.Certificate", Rfc5275.Certificate),
   ("rfc5275.GeneralName", Rfc5275.GeneralName),
   ("rfc5275.CertificateSet", Rfc5275.CertificateSet),
   ("rfc5275.KEKIdentifier", Rfc5275.KEKIdentifier),
   ("rfc5275.RecipientInfos", Rfc5275.RecipientInfos),
   ("rfc5275.SMIMECapability", Rfc5275.SMIMECapability),
   ("rfc5275.AttributeCertificate", Rfc5275.AttributeCertificate),
   ("rfc5275.id_skd", Rfc5275.id_skd),
   ("rfc5275.id_skd_glUseKEK", Rfc5275.id_skd_glUseKEK),
   ("rfc5275.Certificates", Rfc5275.Certificates),
   ("rfc5275.GLInfo", Rfc5275.GLInfo),
   ("rfc5275.GLOwnerInfo", Rfc5275.GLOwnerInfo),
   ("rfc5275.GLAdministration", Rfc5275.GLAdministration),
   ("rfc5275.GLKeyAttributes", Rfc5275.GLKeyAttributes),
   ("rfc5275.GLUseKEK", Rfc5275.GLUseKEK),
   ("rfc5275.id_skd_glDelete", Rfc5275.id_skd_glDelete),
   ("rfc5275.DeleteGL", Rfc5275.DeleteGL),
   ("rfc5275.id_skd_glAddMember", Rfc5275.id_skd_glAddMember),
   ("rfc5275.GLMember", Rfc5275.GLMember),
   ("rfc5275.GLAddMember", Rfc5275.GLAddMember),
   ("rfc5275.id_skd_glDeleteMember", Rfc5275.id_skd_glDeleteMember),
   ("rfc5275.GLDeleteMember", Rfc5275.GLDeleteMember),
   ("rfc5275.id_skd_glRekey", Rfc5275.id_skd_glRekey),
   ("rfc5275.GLNewKeyAttributes", Rfc5275.GLNewKeyAttributes),
   ("rfc5275.GLRekey", Rfc5275.GLRekey),
   ("rfc5275.id_skd_glAddOwner", Rfc5275.id_skd_glAddOwner),
   ("rfc5275.id_skd_glRemoveOwner", Rfc5275.id_skd_glRemoveOwner),
   ("rfc5275.GLOwnerAdministration", Rfc5275.GLOwnerAdministration),
   ("rfc5275.id_skd_glKeyCompromise", Rfc5275.id_skd_glKeyCompromise),
   ("rfc5275.GLKCompromise", Rfc5275.GLKCompromise),
   ("rfc5275.id_skd_glkRefresh", Rfc5275.id_skd_glkRefresh),
   ("rfc5275.Date", Rfc5275.Date),
   ("rfc5275.GLKRefresh", Rfc5275.GLKRefresh),
   ("rfc5275.id_skd_glaQueryRequest", Rfc5275.id_skd_glaQueryRequest),
   ("rfc5275.GLAQueryRequest", Rfc5275.GLAQueryRequest),
   ("rfc5275.id_skd_glaQueryResponse", Rfc5275.id_skd_glaQueryResponse),
   ("rfc5275.GLAQueryResponse", Rfc5275.GLAQueryResponse),
   ("rfc5275.id_cmc_glaRR", Rfc5275.id_cmc_glaRR),
   ("rfc5275.id_cmc_gla_skdAlgRequest", Rfc5275.id_cmc_gla_skdAlgRequest),
   ("rfc5275.SKDAlgRequest", Rfc5275.SKDAlgRequest),
   ("rfc5275.id_cmc_gla_skdAlgResponse", Rfc5275.id_cmc_gla_skdAlgResponse),
   ("rfc5275.SMIMECapabilities", Rfc5275.SMIMECapabilities),
   ("rfc5275.id_skd_glProvideCert", Rfc5275.id_skd_glProvideCert),
   ("rfc5275.id_skd_glManageCert", Rfc5275.id_skd_glManageCert),
   ("rfc5275.GLManageCert", Rfc5275.GLManageCert),
   ("rfc5275.id_skd_glKey", Rfc5275.id_skd_glKey),
   ("rfc5275.GLKey", Rfc5275.GLKey),
   ("rfc5275.id_cet_skdFailInfo", Rfc5275.id_cet_skdFailInfo),
   ("rfc5275.SKDFailInfo", Rfc5275.SKDFailInfo)]

def Rfc5275.fills : List (String × Py.Proto) :=
  [("rfc5275.requested_algorithm__0", Rfc5275.requested_algorithm__0),
   ("rfc5275.requested_algorithm", Rfc5275.requested_algorithm)]

def Rfc5280.steps : List (String × Py.Obj) :=
  [("rfc5280.ub_e163_4_sub_address_length", Rfc5280.ub_e163_4_sub_address_length),
   ("rfc5280.ub_e163_4_number_length", Rfc5280.ub_e163_4_number_length),
   ("rfc5280.unformatted_postal_address", Rfc5280.unformatted_postal_address),
   ("rfc5280.TerminalType__0", Rfc5280.TerminalType__0),
   ("rfc5280.TerminalType", Rfc5280.TerminalType),
   ("rfc5280.Extension__0", Rfc5280.Extension__0),
   ("rfc5280.Extension", Rfc5280.Extension),
   ("rfc5280.Extensions__0", Rfc5280.Extensions__0),
   ("rfc5280.Extensions__1", Rfc5280.Extensions__1),
   ("rfc5280.Extensions", Rfc5280.Extensions),
   ("rfc5280.physical_delivery_personal_name", Rfc5280.physical_delivery_personal_name),
   ("rfc5280.ub_unformatted_address_length", Rfc5280.ub_unformatted_address_length),
   ("rfc5280.ub_pds_parameter_length", Rfc5280.ub_pds_parameter_length),
   ("rfc5280.ub_pds_physical_address_lines", Rfc5280.ub_pds_physical_address_lines),
   ("rfc5280.UnformattedPostalAddress__0", Rfc5280.UnformattedPostalAddress__0),
   ("rfc5280.UnformattedPostalAddress", Rfc5280.UnformattedPostalAddress),
   ("rfc5280.ub_organization_name", Rfc5280.ub_organization_name),
   ("rfc5280.X520OrganizationName__0", Rfc5280.X520OrganizationName__0),
   ("rfc5280.X520OrganizationName", Rfc5280.X520OrganizationName),
   ("rfc5280.ub_x121_address_length", Rfc5280.ub_x121_address_length),
   ("rfc5280.pds_name", Rfc5280.pds_name),
   ("rfc5280.id_pkix", Rfc5280.id_pkix),
   ("rfc5280.id_kp", Rfc5280.id_kp),
   ("rfc5280.ub_postal_code_length", Rfc5280.ub_postal_code_length),
   ("rfc5280.PostalCode__0", Rfc5280.PostalCode__0),
   ("rfc5280.PostalCode", Rfc5280.PostalCode),
   ("rfc5280.ub_generation_qualifier_length", Rfc5280.ub_generation_qualifier_length),
   ("rfc5280.unique_postal_name", Rfc5280.unique_postal_name),
   ("rfc5280.DomainComponent", Rfc5280.DomainComponent),
   ("rfc5280.ub_domain_defined_attribute_value_length", Rfc5280.ub_domain_defined_attribute_value_length),
   ("rfc5280.ub_match", Rfc5280.ub_match),
   ("rfc5280.id_at", Rfc5280.id_at),
   ("rfc5280.AttributeType", Rfc5280.AttributeType),
   ("rfc5280.id_at_organizationalUnitName", Rfc5280.id_at_organizationalUnitName),
   ("rfc5280.terminal_type", Rfc5280.terminal_type),
   ("rfc5280.PDSParameter__0", Rfc5280.PDSParameter__0),
   ("rfc5280.PDSParameter", Rfc5280.PDSParameter),
   ("rfc5280.PhysicalDeliveryPersonalName", Rfc5280.PhysicalDeliveryPersonalName),
   ("rfc5280.ub_surname_length", Rfc5280.ub_surname_length),
   ("rfc5280.id_ad", Rfc5280.id_ad),
   ("rfc5280.ub_domain_defined_attribute_type_length", Rfc5280.ub_domain_defined_attribute_type_length),
   ("rfc5280.TeletexDomainDefinedAttribute__0", Rfc5280.TeletexDomainDefinedAttribute__0),
   ("rfc5280.TeletexDomainDefinedAttribute", Rfc5280.TeletexDomainDefinedAttribute),
   ("rfc5280.ub_domain_defined_attributes", Rfc5280.ub_domain_defined_attributes),
   ("rfc5280.TeletexDomainDefinedAttributes__0", Rfc5280.TeletexDomainDefinedAttributes__0),
   ("rfc5280.TeletexDomainDefinedAttributes__1", Rfc5280.TeletexDomainDefinedAttributes__1),
   ("rfc5280.TeletexDomainDefinedAttributes", Rfc5280.TeletexDomainDefinedAttributes),
   ("rfc5280.extended_network_address", Rfc5280.extended_network_address),
   ("rfc5280.ub_locality_name", Rfc5280.ub_locality_name),
   ("rfc5280.X520LocalityName__0", Rfc5280.X520LocalityName__0),
   ("rfc5280.X520LocalityName", Rfc5280.X520LocalityName),
   ("rfc5280.teletex_organization_name", Rfc5280.teletex_organization_name),
   ("rfc5280.ub_given_name_length", Rfc5280.ub_given_name_length),
   ("rfc5280.ub_initials_length", Rfc5280.ub_initials_length),
   ("rfc5280.PersonalName__0", Rfc5280.PersonalName__0),
   ("rfc5280.PersonalName", Rfc5280.PersonalName),
   ("rfc5280.ub_organizational_unit_name_length", Rfc5280.ub_organizational_unit_name_length),
   ("rfc5280.OrganizationalUnitName__0", Rfc5280.OrganizationalUnitName__0),
   ("rfc5280.OrganizationalUnitName", Rfc5280.OrganizationalUnitName),
   ("rfc5280.id_at_generationQualifier", Rfc5280.id_at_generationQualifier),
   ("rfc5280.Version__0", Rfc5280.Version__0),
   ("rfc5280.Version", Rfc5280.Version),
   ("rfc5280.CertificateSerialNumber", Rfc5280.CertificateSerialNumber),
   ("rfc5280.AlgorithmIdentifier", Rfc5280.AlgorithmIdentifier),
   ("rfc5280.Time__0", Rfc5280.Time__0),
   ("rfc5280.Time", Rfc5280.Time),
   ("rfc5280.AttributeValue", Rfc5280.AttributeValue),
   ("rfc5280.AttributeTypeAndValue", Rfc5280.AttributeTypeAndValue),
   ("rfc5280.RelativeDistinguishedName__0", Rfc5280.RelativeDistinguishedName__0),
   ("rfc5280.RelativeDistinguishedName__1", Rfc5280.RelativeDistinguishedName__1),
   ("rfc5280.RelativeDistinguishedName", Rfc5280.RelativeDistinguishedName),
   ("rfc5280.RDNSequence__0", Rfc5280.RDNSequence__0),
   ("rfc5280.RDNSequence", Rfc5280.RDNSequence),
   ("rfc5280.Name__0", Rfc5280.Name__0),
   ("rfc5280.Name", Rfc5280.Name),
   ("rfc5280.TBSCertList__0", Rfc5280.TBSCertList__0),
   ("rfc5280.TBSCertList", Rfc5280.TBSCertList),
   ("rfc5280.CertificateList__0", Rfc5280.CertificateList__0),
   ("rfc5280.CertificateList", Rfc5280.CertificateList),
   ("rfc5280.PhysicalDeliveryOfficeName", Rfc5280.PhysicalDeliveryOfficeName),
   ("rfc5280.ub_extension_attributes", Rfc5280.ub_extension_attributes),
   ("rfc5280.ExtensionAttribute", Rfc5280.ExtensionAttribute),
   ("rfc5280.id_qt", Rfc5280.id_qt),
   ("rfc5280.id_qt_cps", Rfc5280.id_qt_cps),
   ("rfc5280.id_at_stateOrProvinceName", Rfc5280.id_at_stateOrProvinceName),
   ("rfc5280.id_at_title", Rfc5280.id_at_title),
   ("rfc5280.id_at_serialNumber", Rfc5280.id_at_serialNumber),
   ("rfc5280.X520dnQualifier", Rfc5280.X520dnQualifier),
   ("rfc5280.PosteRestanteAddress", Rfc5280.PosteRestanteAddress),
   ("rfc5280.poste_restante_address", Rfc5280.poste_restante_address),
   ("rfc5280.UniqueIdentifier", Rfc5280.UniqueIdentifier),
   ("rfc5280.Validity__0", Rfc5280.Validity__0),
   ("rfc5280.Validity", Rfc5280.Validity),
   ("rfc5280.SubjectPublicKeyInfo__0", Rfc5280.SubjectPublicKeyInfo__0),
   ("rfc5280.SubjectPublicKeyInfo", Rfc5280.SubjectPublicKeyInfo),
   ("rfc5280.TBSCertificate__0", Rfc5280.TBSCertificate__0),
   ("rfc5280.TBSCertificate", Rfc5280.TBSCertificate),
   ("rfc5280.physical_delivery_office_name", Rfc5280.physical_delivery_office_name),
   ("rfc5280.ub_name", Rfc5280.ub_name),
   ("rfc5280.X520name__0", Rfc5280.X520name__0),
   ("rfc5280.X520name", Rfc5280.X520name),
   ("rfc5280.id_at_dnQualifier", Rfc5280.id_at_dnQualifier),
   ("rfc5280.ub_serial_number", Rfc5280.ub_serial_number),
   ("rfc5280.ub_pseudonym", Rfc5280.ub_pseudonym),
   ("rfc5280.pkcs_9", Rfc5280.pkcs_9),
   ("rfc5280.X121Address__0", Rfc5280.X121Address__0),
   ("rfc5280.X121Address", Rfc5280.X121Address),
   ("rfc5280.NetworkAddress", Rfc5280.NetworkAddress),
   ("rfc5280.ub_integer_options", Rfc5280.ub_integer_options),
   ("rfc5280.id_at_commonName", Rfc5280.id_at_commonName),
   ("rfc5280.ub_organization_name_length", Rfc5280.ub_organization_name_length),
   ("rfc5280.id_ad_ocsp", Rfc5280.id_ad_ocsp),
   ("rfc5280.ub_country_name_numeric_length", Rfc5280.ub_country_name_numeric_length),
   ("rfc5280.ub_country_name_alpha_length", Rfc5280.ub_country_name_alpha_length),
   ("rfc5280.PhysicalDeliveryCountryName__0", Rfc5280.PhysicalDeliveryCountryName__0),
   ("rfc5280.PhysicalDeliveryCountryName", Rfc5280.PhysicalDeliveryCountryName),
   ("rfc5280.id_emailAddress", Rfc5280.id_emailAddress),
   ("rfc5280.common_name", Rfc5280.common_name),
   ("rfc5280.X520Pseudonym__0", Rfc5280.X520Pseudonym__0),
   ("rfc5280.X520Pseudonym", Rfc5280.X520Pseudonym),
   ("rfc5280.ub_domain_name_length", Rfc5280.ub_domain_name_length),
   ("rfc5280.AdministrationDomainName__0", Rfc5280.AdministrationDomainName__0),
   ("rfc5280.AdministrationDomainName__1", Rfc5280.AdministrationDomainName__1),
   ("rfc5280.AdministrationDomainName", Rfc5280.AdministrationDomainName),
   ("rfc5280.PresentationAddress__0", Rfc5280.PresentationAddress__0),
   ("rfc5280.PresentationAddress", Rfc5280.PresentationAddress),
   ("rfc5280.ExtendedNetworkAddress__0", Rfc5280.ExtendedNetworkAddress__0),
   ("rfc5280.ExtendedNetworkAddress", Rfc5280.ExtendedNetworkAddress),
   ("rfc5280.TeletexOrganizationName__0", Rfc5280.TeletexOrganizationName__0),
   ("rfc5280.TeletexOrganizationName", Rfc5280.TeletexOrganizationName),
   ("rfc5280.ub_terminal_id_length", Rfc5280.ub_terminal_id_length),
   ("rfc5280.TerminalIdentifier__0", Rfc5280.TerminalIdentifier__0),
   ("rfc5280.TerminalIdentifier", Rfc5280.TerminalIdentifier),
   ("rfc5280.id_ad_caIssuers", Rfc5280.id_ad_caIssuers),
   ("rfc5280.id_at_countryName", Rfc5280.id_at_countryName),
   ("rfc5280.StreetAddress", Rfc5280.StreetAddress),
   ("rfc5280.postal_code", Rfc5280.postal_code),
   ("rfc5280.id_at_givenName", Rfc5280.id_at_givenName),
   ("rfc5280.ub_title", Rfc5280.ub_title),
   ("rfc5280.ExtensionAttributes__0", Rfc5280.ExtensionAttributes__0),
   ("rfc5280.ExtensionAttributes__1", Rfc5280.ExtensionAttributes__1),
   ("rfc5280.ExtensionAttributes", Rfc5280.ExtensionAttributes),
   ("rfc5280.ub_emailaddress_length", Rfc5280.ub_emailaddress_length),
   ("rfc5280.id_ad_caRepository", Rfc5280.id_ad_caRepository),
   ("rfc5280.ExtensionORAddressComponents", Rfc5280.ExtensionORAddressComponents),
   ("rfc5280.ub_organizational_unit_name", Rfc5280.ub_organizational_unit_name),
   ("rfc5280.X520OrganizationalUnitName__0", Rfc5280.X520OrganizationalUnitName__0),
   ("rfc5280.X520OrganizationalUnitName", Rfc5280.X520OrganizationalUnitName),
   ("rfc5280.LocalPostalAttributes", Rfc5280.LocalPostalAttributes),
   ("rfc5280.teletex_organizational_unit_names", Rfc5280.teletex_organizational_unit_names),
   ("rfc5280.X520Title__0", Rfc5280.X520Title__0),
   ("rfc5280.X520Title", Rfc5280.X520Title),
   ("rfc5280.id_at_localityName", Rfc5280.id_at_localityName),
   ("rfc5280.id_at_initials", Rfc5280.id_at_initials),
   ("rfc5280.ub_state_name", Rfc5280.ub_state_name),
   ("rfc5280.X520StateOrProvinceName__0", Rfc5280.X520StateOrProvinceName__0),
   ("rfc5280.X520StateOrProvinceName", Rfc5280.X520StateOrProvinceName),
   ("rfc5280.physical_delivery_organization_name", Rfc5280.physical_delivery_organization_name),
   ("rfc5280.id_at_surname", Rfc5280.id_at_surname),
   ("rfc5280.X520countryName__0", Rfc5280.X520countryName__0),
   ("rfc5280.X520countryName", Rfc5280.X520countryName),
   ("rfc5280.physical_delivery_office_number", Rfc5280.physical_delivery_office_number),
   ("rfc5280.id_qt_unotice", Rfc5280.id_qt_unotice),
   ("rfc5280.X520SerialNumber__0", Rfc5280.X520SerialNumber__0),
   ("rfc5280.X520SerialNumber", Rfc5280.X520SerialNumber),
   ("rfc5280.Attribute", Rfc5280.Attribute),
   ("rfc5280.ub_common_name", Rfc5280.ub_common_name),
   ("rfc5280.id_pe", Rfc5280.id_pe),
   ("rfc5280.ExtensionPhysicalDeliveryAddressComponents", Rfc5280.ExtensionPhysicalDeliveryAddressComponents),
   ("rfc5280.EmailAddress__0", Rfc5280.EmailAddress__0),
   ("rfc5280.EmailAddress", Rfc5280.EmailAddress),
   ("rfc5280.id_at_organizationName", Rfc5280.id_at_organizationName),
   ("rfc5280.post_office_box_address", Rfc5280.post_office_box_address),
   ("rfc5280.BuiltInDomainDefinedAttribute__0", Rfc5280.BuiltInDomainDefinedAttribute__0),
   ("rfc5280.BuiltInDomainDefinedAttribute", Rfc5280.BuiltInDomainDefinedAttribute),
   ("rfc5280.BuiltInDomainDefinedAttributes__0", Rfc5280.BuiltInDomainDefinedAttributes__0),
   ("rfc5280.BuiltInDomainDefinedAttributes__1", Rfc5280.BuiltInDomainDefinedAttributes__1),
   ("rfc5280.BuiltInDomainDefinedAttributes", Rfc5280.BuiltInDomainDefinedAttributes),
   ("rfc5280.id_at_pseudonym", Rfc5280.id_at_pseudonym),
   ("rfc5280.id_domainComponent", Rfc5280.id_domainComponent),
   ("rfc5280.X520CommonName__0", Rfc5280.X520CommonName__0),
   ("rfc5280.X520CommonName", Rfc5280.X520CommonName),
   ("rfc5280.extension_OR_address_components", Rfc5280.extension_OR_address_components),
   ("rfc5280.ub_organizational_units", Rfc5280.ub_organizational_units),
   ("rfc5280.teletex_personal_name", Rfc5280.teletex_personal_name),
   ("rfc5280.ub_numeric_user_id_length", Rfc5280.ub_numeric_user_id_length),
   ("rfc5280.ub_common_name_length", Rfc5280.ub_common_name_length),
   ("rfc5280.TeletexCommonName__0", Rfc5280.TeletexCommonName__0),
   ("rfc5280.TeletexCommonName", Rfc5280.TeletexCommonName),
   ("rfc5280.PhysicalDeliveryOrganizationName", Rfc5280.PhysicalDeliveryOrganizationName),
   ("rfc5280.extension_physical_delivery_address_components", Rfc5280.extension_physical_delivery_address_components),
   ("rfc5280.NumericUserIdentifier__0", Rfc5280.NumericUserIdentifier__0),
   ("rfc5280.NumericUserIdentifier", Rfc5280.NumericUserIdentifier),
   ("rfc5280.CountryName__0", Rfc5280.CountryName__0),
   ("rfc5280.CountryName__1", Rfc5280.CountryName__1),
   ("rfc5280.CountryName", Rfc5280.CountryName),
   ("rfc5280.OrganizationName__0", Rfc5280.OrganizationName__0),
   ("rfc5280.OrganizationName", Rfc5280.OrganizationName),
   ("rfc5280.OrganizationalUnitNames__0", Rfc5280.OrganizationalUnitNames__0),
   ("rfc5280.OrganizationalUnitNames__1", Rfc5280.OrganizationalUnitNames__1),
   ("rfc5280.OrganizationalUnitNames", Rfc5280.OrganizationalUnitNames),
   ("rfc5280.PrivateDomainName__0", Rfc5280.PrivateDomainName__0),
   ("rfc5280.PrivateDomainName", Rfc5280.PrivateDomainName),
   ("rfc5280.BuiltInStandardAttributes__0", Rfc5280.BuiltInStandardAttributes__0),
   ("rfc5280.BuiltInStandardAttributes", Rfc5280.BuiltInStandardAttributes),
   ("rfc5280.ORAddress__0", Rfc5280.ORAddress__0),
   ("rfc5280.ORAddress", Rfc5280.ORAddress),
   ("rfc5280.DistinguishedName", Rfc5280.DistinguishedName),
   ("rfc5280.id_ad_timeStamping", Rfc5280.id_ad_timeStamping),
   ("rfc5280.PhysicalDeliveryOfficeNumber", Rfc5280.PhysicalDeliveryOfficeNumber),
   ("rfc5280.teletex_domain_defined_attributes", Rfc5280.teletex_domain_defined_attributes),
   ("rfc5280.UniquePostalName", Rfc5280.UniquePostalName),
   ("rfc5280.physical_delivery_country_name", Rfc5280.physical_delivery_country_name),
   ("rfc5280.ub_pds_name_length", Rfc5280.ub_pds_name_length),
   ("rfc5280.PDSName__0", Rfc5280.PDSName__0),
   ("rfc5280.PDSName", Rfc5280.PDSName),
   ("rfc5280.TeletexPersonalName__0", Rfc5280.TeletexPersonalName__0),
   ("rfc5280.TeletexPersonalName", Rfc5280.TeletexPersonalName),
   ("rfc5280.street_address", Rfc5280.street_address),
   ("rfc5280.PostOfficeBoxAddress", Rfc5280.PostOfficeBoxAddress),
   ("rfc5280.local_postal_attributes", Rfc5280.local_postal_attributes),
   ("rfc5280.DirectoryString__0", Rfc5280.DirectoryString__0),
   ("rfc5280.DirectoryString", Rfc5280.DirectoryString),
   ("rfc5280.teletex_common_name", Rfc5280.teletex_common_name),
   ("rfc5280.CommonName__0", Rfc5280.CommonName__0),
   ("rfc5280.CommonName", Rfc5280.CommonName),
   ("rfc5280.Certificate__0", Rfc5280.Certificate__0),
   ("rfc5280.Certificate", Rfc5280.Certificate),
   ("rfc5280.TeletexOrganizationalUnitName__0", Rfc5280.TeletexOrganizationalUnitName__0),
   ("rfc5280.TeletexOrganizationalUnitName", Rfc5280.TeletexOrganizationalUnitName),
   ("rfc5280.id_at_name", Rfc5280.id_at_name),
   ("rfc5280.TeletexOrganizationalUnitNames__0", Rfc5280.TeletexOrganizationalUnitNames__0),
   ("rfc5280.TeletexOrganizationalUnitNames__1", Rfc5280.TeletexOrganizationalUnitNames__1),
   ("rfc5280.TeletexOrganizationalUnitNames", Rfc5280.TeletexOrganizationalUnitNames),
   ("rfc5280.id_ce", Rfc5280.id_ce),
   ("rfc5280.id_ce_issuerAltName", Rfc5280.id_ce_issuerAltName),
   ("rfc5280.SkipCerts__0", Rfc5280.SkipCerts__0),
   ("rfc5280.SkipCerts", Rfc5280.SkipCerts),
   ("rfc5280.CRLReason__0", Rfc5280.CRLReason__0),
   ("rfc5280.CRLReason", Rfc5280.CRLReason),
   ("rfc5280.PrivateKeyUsagePeriod__0", Rfc5280.PrivateKeyUsagePeriod__0),
   ("rfc5280.PrivateKeyUsagePeriod", Rfc5280.PrivateKeyUsagePeriod),
   ("rfc5280.AnotherName", Rfc5280.AnotherName),
   ("rfc5280.EDIPartyName__0", Rfc5280.EDIPartyName__0),
   ("rfc5280.EDIPartyName", Rfc5280.EDIPartyName),
   ("rfc5280.GeneralName__0", Rfc5280.GeneralName__0),
   ("rfc5280.GeneralName", Rfc5280.GeneralName),
   ("rfc5280.BaseDistance__0", Rfc5280.BaseDistance__0),
   ("rfc5280.BaseDistance", Rfc5280.BaseDistance),
   ("rfc5280.GeneralSubtree__0", Rfc5280.GeneralSubtree__0),
   ("rfc5280.GeneralSubtree", Rfc5280.GeneralSubtree),
   ("rfc5280.GeneralNames__0", Rfc5280.GeneralNames__0),
   ("rfc5280.GeneralNames__1", Rfc5280.GeneralNames__1),
   ("rfc5280.GeneralNames", Rfc5280.GeneralNames),
   ("rfc5280.DistributionPointName__0", Rfc5280.DistributionPointName__0),
   ("rfc5280.DistributionPointName", Rfc5280.DistributionPointName),
   ("rfc5280.ReasonFlags__0", Rfc5280.ReasonFlags__0),
   ("rfc5280.ReasonFlags", Rfc5280.ReasonFlags),
   ("rfc5280.IssuingDistributionPoint__0", Rfc5280.IssuingDistributionPoint__0),
   ("rfc5280.IssuingDistributionPoint", Rfc5280.IssuingDistributionPoint),
   ("rfc5280.id_ce_certificatePolicies", Rfc5280.id_ce_certificatePolicies),
   ("rfc5280.id_kp_emailProtection", Rfc5280.id_kp_emailProtection),
   ("rfc5280.AccessDescription__0", Rfc5280.AccessDescription__0),
   ("rfc5280.AccessDescription", Rfc5280.AccessDescription),
   ("rfc5280.IssuerAltName", Rfc5280.IssuerAltName),
   ("rfc5280.id_ce_cRLDistributionPoints", Rfc5280.id_ce_cRLDistributionPoints),
   ("rfc5280.holdInstruction", Rfc5280.holdInstruction),
   ("rfc5280.id_holdinstruction_callissuer", Rfc5280.id_holdinstruction_callissuer),
   ("rfc5280.id_ce_subjectDirectoryAttributes", Rfc5280.id_ce_subjectDirectoryAttributes),
   ("rfc5280.id_ce_issuingDistributionPoint", Rfc5280.id_ce_issuingDistributionPoint),
   ("rfc5280.DistributionPoint__0", Rfc5280.DistributionPoint__0),
   ("rfc5280.DistributionPoint", Rfc5280.DistributionPoint),
   ("rfc5280.CRLDistributionPoints__0", Rfc5280.CRLDistributionPoints__0),
   ("rfc5280.CRLDistributionPoints__1", Rfc5280.CRLDistributionPoints__1),
   ("rfc5280.CRLDistributionPoints", Rfc5280.CRLDistributionPoints),
   ("rfc5280.GeneralSubtrees__0", Rfc5280.GeneralSubtrees__0),
   ("rfc5280.GeneralSubtrees__1", Rfc5280.GeneralSubtrees__1),
   ("rfc5280.GeneralSubtrees", Rfc5280.GeneralSubtrees),
   ("rfc5280.NameConstraints__0", Rfc5280.NameConstraints__0),
   ("rfc5280.NameConstraints", Rfc5280.NameConstraints),
   ("rfc5280.SubjectDirectoryAttributes__0", Rfc5280.SubjectDirectoryAttributes__0),
   ("rfc5280.SubjectDirectoryAttributes__1", Rfc5280.SubjectDirectoryAttributes__1),
   ("rfc5280.SubjectDirectoryAttributes", Rfc5280.SubjectDirectoryAttributes),
   ("rfc5280.id_kp_OCSPSigning", Rfc5280.id_kp_OCSPSigning),
   ("rfc5280.id_kp_timeStamping", Rfc5280.id_kp_timeStamping),
   ("rfc5280.DisplayText__0", Rfc5280.DisplayText__0),
   ("rfc5280.DisplayText", Rfc5280.DisplayText),
   ("rfc5280.NoticeReference__0", Rfc5280.NoticeReference__0),
   ("rfc5280.NoticeReference", Rfc5280.NoticeReference),
   ("rfc5280.UserNotice__0", Rfc5280.UserNotice__0),
   ("rfc5280.UserNotice", Rfc5280.UserNotice),
   ("rfc5280.PolicyQualifierId", Rfc5280.PolicyQualifierId),
   ("rfc5280.PolicyQualifierInfo", Rfc5280.PolicyQualifierInfo),
   ("rfc5280.CertPolicyId", Rfc5280.CertPolicyId),
   ("rfc5280.PolicyInformation__0", Rfc5280.PolicyInformation__0),
   ("rfc5280.PolicyInformation", Rfc5280.PolicyInformation),
   ("rfc5280.CertificatePolicies__0", Rfc5280.CertificatePolicies__0),
   ("rfc5280.CertificatePolicies__1", Rfc5280.CertificatePolicies__1),
   ("rfc5280.CertificatePolicies", Rfc5280.CertificatePolicies),
   ("rfc5280.SubjectAltName", Rfc5280.SubjectAltName),
   ("rfc5280.id_ce_basicConstraints", Rfc5280.id_ce_basicConstraints),
   ("rfc5280.id_ce_authorityKeyIdentifier", Rfc5280.id_ce_authorityKeyIdentifier),
   ("rfc5280.id_kp_codeSigning", Rfc5280.id_kp_codeSigning),
   ("rfc5280.BasicConstraints__0", Rfc5280.BasicConstraints__0),
   ("rfc5280.BasicConstraints", Rfc5280.BasicConstraints),
   ("rfc5280.id_ce_certificateIssuer", Rfc5280.id_ce_certificateIssuer),
   ("rfc5280.PolicyMappings__0", Rfc5280.PolicyMappings__0),
   ("rfc5280.PolicyMappings__1", Rfc5280.PolicyMappings__1),
   ("rfc5280.PolicyMappings", Rfc5280.PolicyMappings),
   ("rfc5280.InhibitAnyPolicy", Rfc5280.InhibitAnyPolicy),
   ("rfc5280.anyPolicy", Rfc5280.anyPolicy),
   ("rfc5280.CRLNumber__0", Rfc5280.CRLNumber__0),
   ("rfc5280.CRLNumber", Rfc5280.CRLNumber),
   ("rfc5280.BaseCRLNumber", Rfc5280.BaseCRLNumber),
   ("rfc5280.id_ce_nameConstraints", Rfc5280.id_ce_nameConstraints),
   ("rfc5280.id_kp_serverAuth", Rfc5280.id_kp_serverAuth),
   ("rfc5280.id_ce_freshestCRL", Rfc5280.id_ce_freshestCRL),
   ("rfc5280.id_ce_cRLReasons", Rfc5280.id_ce_cRLReasons),
   ("rfc5280.id_ce_extKeyUsage", Rfc5280.id_ce_extKeyUsage),
   ("rfc5280.KeyIdentifier", Rfc5280.KeyIdentifier),
   ("rfc5280.AuthorityKeyIdentifier__0", Rfc5280.AuthorityKeyIdentifier__0),
   ("rfc5280.AuthorityKeyIdentifier", Rfc5280.AuthorityKeyIdentifier),
   ("rfc5280.FreshestCRL", Rfc5280.FreshestCRL),
   ("rfc5280.id_ce_policyConstraints", Rfc5280.id_ce_policyConstraints),
   ("rfc5280.id_pe_authorityInfoAccess", Rfc5280.id_pe_authorityInfoAccess),
   ("rfc5280.AuthorityInfoAccessSyntax__0", Rfc5280.AuthorityInfoAccessSyntax__0),
   ("rfc5280.AuthorityInfoAccessSyntax__1", Rfc5280.AuthorityInfoAccessSyntax__1),
   ("rfc5280.AuthorityInfoAccessSyntax", Rfc5280.AuthorityInfoAccessSyntax),
   ("rfc5280.id_holdinstruction_none", Rfc5280.id_holdinstruction_none),
   ("rfc5280.CPSuri", Rfc5280.CPSuri),
   ("rfc5280.id_pe_subjectInfoAccess", Rfc5280.id_pe_subjectInfoAccess),
   ("rfc5280.SubjectKeyIdentifier", Rfc5280.SubjectKeyIdentifier),
   ("rfc5280.id_ce_subjectAltName", Rfc5280.id_ce_subjectAltName),
   ("rfc5280.KeyPurposeId", Rfc5280.KeyPurposeId),
   ("rfc5280.ExtKeyUsageSyntax__0", Rfc5280.ExtKeyUsageSyntax__0),
   ("rfc5280.ExtKeyUsageSyntax__1", Rfc5280.ExtKeyUsageSyntax__1),
   ("rfc5280.ExtKeyUsageSyntax", Rfc5280.ExtKeyUsageSyntax),
   ("rfc5280.HoldInstructionCode", Rfc5280.HoldInstructionCode),
   ("rfc5280.id_ce_deltaCRLIndicator", Rfc5280.id_ce_deltaCRLIndicator),
   ("rfc5280.id_ce_keyUsage", Rfc5280.id_ce_keyUsage),
   ("rfc5280.id_ce_holdInstructionCode", Rfc5280.id_ce_holdInstructionCode),
   ("rfc5280.SubjectInfoAccessSyntax__0", Rfc5280.SubjectInfoAccessSyntax__0),
   ("rfc5280.SubjectInfoAccessSyntax__1", Rfc5280.SubjectInfoAccessSyntax__1),
   ("rfc5280.SubjectInfoAccessSyntax", Rfc5280.SubjectInfoAccessSyntax),
   ("rfc5280.InvalidityDate", Rfc5280.InvalidityDate),
   ("rfc5280.KeyUsage__0", Rfc5280.KeyUsage__0),
   ("rfc5280.KeyUsage", Rfc5280.KeyUsage),
   ("rfc5280.id_ce_invalidityDate", Rfc5280.id_ce_invalidityDate),
   ("rfc5280.id_ce_policyMappings", Rfc5280.id_ce_policyMappings),
   ("rfc5280.anyExtendedKeyUsage", Rfc5280.anyExtendedKeyUsage),
   ("rfc5280.id_ce_privateKeyUsagePeriod", Rfc5280.id_ce_privateKeyUsagePeriod),
   ("rfc5280.id_ce_cRLNumber", Rfc5280.id_ce_cRLNumber),
   ("rfc5280.CertificateIssuer", Rfc5280.CertificateIssuer),
   ("rfc5280.id_holdinstruction_reject", Rfc5280.id_holdinstruction_reject),
   ("rfc5280.PolicyConstraints__0", Rfc5280.PolicyConstraints__0),
   ("rfc5280.PolicyConstraints", Rfc5280.PolicyConstraints),
   ("rfc5280.id_kp_clientAuth", Rfc5280.id_kp_clientAuth),
   ("rfc5280.id_ce_subjectKeyIdentifier", Rfc5280.id_ce_subjectKeyIdentifier),
   ("rfc5280.id_ce_inhibitAnyPolicy", Rfc5280.id_ce_inhibitAnyPolicy)]

def Rfc5280.fills : List (String × Py.Proto) :=
  []

def Rfc5480.steps : List (String × Py.Obj) :=
  [("rfc5480.DHPublicKey", Rfc5480.DHPublicKey),
   ("rfc5480.DSAPublicKey", Rfc5480.DSAPublicKey),
   ("rfc5480.ValidationParms", Rfc5480.ValidationParms),
   ("rfc5480.DomainParameters", Rfc5480.DomainParameters),
   ("rfc5480.ECDSA_Sig_Value", Rfc5480.ECDSA_Sig_Value),
   ("rfc5480.ECPoint", Rfc5480.ECPoint),
   ("rfc5480.KEA_Parms_Id", Rfc5480.KEA_Parms_Id),
   ("rfc5480.RSAPublicKey", Rfc5480.RSAPublicKey),
   ("rfc5480.DSS_Parms", Rfc5480.DSS_Parms),
   ("rfc5480.DSA_Sig_Value", Rfc5480.DSA_Sig_Value),
   ("rfc5480.ECParameters__0", Rfc5480.ECParameters__0),
   ("rfc5480.ECParameters", Rfc5480.ECParameters),
   ("rfc5480.id_md2", Rfc5480.id_md2),
   ("rfc5480.id_md5", Rfc5480.id_md5),
   ("rfc5480.id_sha1", Rfc5480.id_sha1),
   ("rfc5480.id_sha224", Rfc5480.id_sha224),
   ("rfc5480.id_sha256", Rfc5480.id_sha256),
   ("rfc5480.id_sha384", Rfc5480.id_sha384),
   ("rfc5480.id_sha512", Rfc5480.id_sha512),
   ("rfc5480.rsaEncryption", Rfc5480.rsaEncryption),
   ("rfc5480.id_dsa", Rfc5480.id_dsa),
   ("rfc5480.dhpublicnumber", Rfc5480.dhpublicnumber),
   ("rfc5480.id_keyExchangeAlgorithm", Rfc5480.id_keyExchangeAlgorithm),
   ("rfc5480.id_ecPublicKey", Rfc5480.id_ecPublicKey),
   ("rfc5480.id_ecDH", Rfc5480.id_ecDH),
   ("rfc5480.id_ecMQV", Rfc5480.id_ecMQV),
   ("rfc5480.md2WithRSAEncryption", Rfc5480.md2WithRSAEncryption),
   ("rfc5480.md5WithRSAEncryption", Rfc5480.md5WithRSAEncryption),
   ("rfc5480.sha1WithRSAEncryption", Rfc5480.sha1WithRSAEncryption),
   ("rfc5480.id_dsa_with_sha1", Rfc5480.id_dsa_with_sha1),
   ("rfc5480.id_dsa_with_sha224", Rfc5480.id_dsa_with_sha224),
   ("rfc5480.id_dsa_with_sha256", Rfc5480.id_dsa_with_sha256),
   ("rfc5480.ecdsa_with_SHA1", Rfc5480.ecdsa_with_SHA1),
   ("rfc5480.ecdsa_with_SHA224", Rfc5480.ecdsa_with_SHA224),
   ("rfc5480.ecdsa_with_SHA256", Rfc5480.ecdsa_with_SHA256),
   ("rfc5480.ecdsa_with_SHA384", Rfc5480.ecdsa_with_SHA384),
   ("rfc5480.ecdsa_with_SHA512", Rfc5480.ecdsa_with_SHA512),
   ("rfc5480.secp192r1", Rfc5480.secp192r1),
   ("rfc5480.sect163k1", Rfc5480.sect163k1),
   ("rfc5480.sect163r2", Rfc5480.sect163r2),
   ("rfc5480.secp224r1", Rfc5480.secp224r1),
   ("rfc5480.sect233k1", Rfc5480.sect233k1),
   ("rfc5480.sect233r1", Rfc5480.sect233r1),
   ("rfc5480.secp256r1", Rfc5480.secp256r1),
   ("rfc5480.sect283k1", Rfc5480.sect283k1),
   ("rfc5480.sect283r1", Rfc5480.sect283r1),
   ("rfc5480.secp384r1", Rfc5480.secp384r1),
   ("rfc5480.sect409k1", Rfc5480.sect409k1),
   ("rfc5480.sect409r1", Rfc5480.sect409r1),
   ("rfc5480.secp521r1", Rfc5480.secp521r1),
   ("rfc5480.sect571k1", Rfc5480.sect571k1),
   ("rfc5480.sect571r1", Rfc5480.sect571r1)]

def Rfc5480.fills : List (String × Py.Proto) :=
  []

def Rfc5636.steps : List (String × Py.Obj) :=
  [("rfc5636.ContentInfo", Rfc5636.ContentInfo),
   ("rfc5636.EncapsulatedContentInfo", Rfc5636.EncapsulatedContentInfo),
   ("rfc5636.id_data", Rfc5636.id_data),
   ("rfc5636.id_KISA", Rfc5636.id_KISA),
   ("rfc5636.id_npki", Rfc5636.id_npki),
   ("rfc5636.id_attribute", Rfc5636.id_attribute),
   ("rfc5636.id_kisa_tac", Rfc5636.id_kisa_tac),
   ("rfc5636.id_kisa_tac_token", Rfc5636.id_kisa_tac_token),
   ("rfc5636.id_kisa_tac_tokenandblindbash", Rfc5636.id_kisa_tac_tokenandblindbash),
   ("rfc5636.id_kisa_tac_tokenandpartially", Rfc5636.id_kisa_tac_tokenandpartially),
   ("rfc5636.UserKey", Rfc5636.UserKey),
   ("rfc5636.Timeout", Rfc5636.Timeout),
   ("rfc5636.BlinedCertificateHash", Rfc5636.BlinedCertificateHash),
   ("rfc5636.PartiallySignedCertificateHash", Rfc5636.PartiallySignedCertificateHash),
   ("rfc5636.Token", Rfc5636.Token),
   ("rfc5636.TokenandBlindHash", Rfc5636.TokenandBlindHash),
   ("rfc5636.TokenandPartiallySignedCertificateHash", Rfc5636.TokenandPartiallySignedCertificateHash),
   ("rfc5636.TACToken", Rfc5636.TACToken),
   ("rfc5636.TACTokenandBlindHash", Rfc5636.TACTokenandBlindHash),
   ("rfc5636.TACTokenandPartiallySignedCertificateHash", Rfc5636.TACTokenandPartiallySignedCertificateHash)]

def Rfc5636.fills : List (String × Py.Proto) :=
  []

def Rfc5639.steps : List (String × Py.Obj) :=
  [("rfc5639.ecStdCurvesAndGeneration", Rfc5639.ecStdCurvesAndGeneration),
   ("rfc5639.ellipticCurve", Rfc5639.ellipticCurve),
   ("rfc5639.versionOne", Rfc5639.versionOne),
   ("rfc5639.brainpoolP160r1", Rfc5639.brainpoolP160r1),
   ("rfc5639.brainpoolP160t1", Rfc5639.brainpoolP160t1),
   ("rfc5639.brainpoolP192r1", Rfc5639.brainpoolP192r1),
   ("rfc5639.brainpoolP192t1", Rfc5639.brainpoolP192t1),
   ("rfc5639.brainpoolP224r1", Rfc5639.brainpoolP224r1),
   ("rfc5639.brainpoolP224t1", Rfc5639.brainpoolP224t1),
   ("rfc5639.brainpoolP256r1", Rfc5639.brainpoolP256r1),
   ("rfc5639.brainpoolP256t1", Rfc5639.brainpoolP256t1),
   ("rfc5639.brainpoolP320r1", Rfc5639.brainpoolP320r1),
   ("rfc5639.brainpoolP320t1", Rfc5639.brainpoolP320t1),
   ("rfc5639.brainpoolP384r1", Rfc5639.brainpoolP384r1),
   ("rfc5639.brainpoolP384t1", Rfc5639.brainpoolP384t1),
   ("rfc5639.brainpoolP512r1", Rfc5639.brainpoolP512r1),
   ("rfc5639.brainpoolP512t1", Rfc5639.brainpoolP512t1)]

def Rfc5639.fills : List (String × Py.Proto) :=
  []

def Rfc5649.steps : List (String × Py.Obj) :=
  [("rfc5649.AlgorithmIdentifier", Rfc5649.AlgorithmIdentifier),
   ("rfc5649.id_aes128_wrap", Rfc5649.id_aes128_wrap),
   ("rfc5649.id_aes192_wrap", Rfc5649.id_aes192_wrap),
   ("rfc5649.id_aes256_wrap", Rfc5649.id_aes256_wrap),
   ("rfc5649.id_aes128_wrap_pad", Rfc5649.id_aes128_wrap_pad),
   ("rfc5649.id_aes192_wrap_pad", Rfc5649.id_aes192_wrap_pad),
   ("rfc5649.id_aes256_wrap_pad", Rfc5649.id_aes256_wrap_pad)]

def Rfc5649.fills : List (String × Py.Proto) :=
  []

def Rfc5652.steps : List (String × Py.Obj) :=
  [("rfc5652.AttCertVersionV1__0", Rfc5652.AttCertVersionV1__0),
   ("rfc5652.AttCertVersionV1", Rfc5652.AttCertVersionV1),
   ("rfc5652.AttributeCertificateInfoV1__0", Rfc5652.AttributeCertificateInfoV1__0),
   ("rfc5652.AttributeCertificateInfoV1", Rfc5652.AttributeCertificateInfoV1),
   ("rfc5652.AttributeCertificateV1__0", Rfc5652.AttributeCertificateV1__0),
   ("rfc5652.AttributeCertificateV1", Rfc5652.AttributeCertificateV1),
   ("rfc5652.AttributeValue", Rfc5652.AttributeValue),
   ("rfc5652.Attribute__0", Rfc5652.Attribute__0),
   ("rfc5652.Attribute", Rfc5652.Attribute),
   ("rfc5652.SignedAttributes__0", Rfc5652.SignedAttributes__0),
   ("rfc5652.SignedAttributes__1", Rfc5652.SignedAttributes__1),
   ("rfc5652.SignedAttributes", Rfc5652.SignedAttributes),
   ("rfc5652.AttributeCertificateV2", Rfc5652.AttributeCertificateV2),
   ("rfc5652.OtherKeyAttribute__0", Rfc5652.OtherKeyAttribute__0),
   ("rfc5652.OtherKeyAttribute", Rfc5652.OtherKeyAttribute),
   ("rfc5652.UnauthAttributes__0", Rfc5652.UnauthAttributes__0),
   ("rfc5652.UnauthAttributes__1", Rfc5652.UnauthAttributes__1),
   ("rfc5652.UnauthAttributes", Rfc5652.UnauthAttributes),
   ("rfc5652.id_encryptedData", Rfc5652.id_encryptedData),
   ("rfc5652.SignatureValue", Rfc5652.SignatureValue),
   ("rfc5652.IssuerAndSerialNumber__0", Rfc5652.IssuerAndSerialNumber__0),
   ("rfc5652.IssuerAndSerialNumber", Rfc5652.IssuerAndSerialNumber),
   ("rfc5652.SubjectKeyIdentifier", Rfc5652.SubjectKeyIdentifier),
   ("rfc5652.RecipientKeyIdentifier__0", Rfc5652.RecipientKeyIdentifier__0),
   ("rfc5652.RecipientKeyIdentifier", Rfc5652.RecipientKeyIdentifier),
   ("rfc5652.KeyAgreeRecipientIdentifier__0", Rfc5652.KeyAgreeRecipientIdentifier__0),
   ("rfc5652.KeyAgreeRecipientIdentifier", Rfc5652.KeyAgreeRecipientIdentifier),
   ("rfc5652.EncryptedKey", Rfc5652.EncryptedKey),
   ("rfc5652.RecipientEncryptedKey__0", Rfc5652.RecipientEncryptedKey__0),
   ("rfc5652.RecipientEncryptedKey", Rfc5652.RecipientEncryptedKey),
   ("rfc5652.RecipientEncryptedKeys__0", Rfc5652.RecipientEncryptedKeys__0),
   ("rfc5652.RecipientEncryptedKeys", Rfc5652.RecipientEncryptedKeys),
   ("rfc5652.MessageAuthenticationCode", Rfc5652.MessageAuthenticationCode),
   ("rfc5652.CMSVersion__0", Rfc5652.CMSVersion__0),
   ("rfc5652.CMSVersion", Rfc5652.CMSVersion),
   ("rfc5652.OtherCertificateFormat__0", Rfc5652.OtherCertificateFormat__0),
   ("rfc5652.OtherCertificateFormat", Rfc5652.OtherCertificateFormat),
   ("rfc5652.ExtendedCertificateInfo__0", Rfc5652.ExtendedCertificateInfo__0),
   ("rfc5652.ExtendedCertificateInfo", Rfc5652.ExtendedCertificateInfo),
   ("rfc5652.Signature", Rfc5652.Signature),
   ("rfc5652.SignatureAlgorithmIdentifier", Rfc5652.SignatureAlgorithmIdentifier),
   ("rfc5652.ExtendedCertificate__0", Rfc5652.ExtendedCertificate__0),
   ("rfc5652.ExtendedCertificate", Rfc5652.ExtendedCertificate),
   ("rfc5652.CertificateChoices__0", Rfc5652.CertificateChoices__0),
   ("rfc5652.CertificateChoices", Rfc5652.CertificateChoices),
   ("rfc5652.CertificateSet__0", Rfc5652.CertificateSet__0),
   ("rfc5652.CertificateSet", Rfc5652.CertificateSet),
   ("rfc5652.OtherRevocationInfoFormat__0", Rfc5652.OtherRevocationInfoFormat__0),
   ("rfc5652.OtherRevocationInfoFormat", Rfc5652.OtherRevocationInfoFormat),
   ("rfc5652.RevocationInfoChoice__0", Rfc5652.RevocationInfoChoice__0),
   ("rfc5652.RevocationInfoChoice", Rfc5652.RevocationInfoChoice),
   ("rfc5652.RevocationInfoChoices__0", Rfc5652.RevocationInfoChoices__0),
   ("rfc5652.RevocationInfoChoices", Rfc5652.RevocationInfoChoices),
   ("rfc5652.OriginatorInfo__0", Rfc5652.OriginatorInfo__0),
   ("rfc5652.OriginatorInfo", Rfc5652.OriginatorInfo),
   ("rfc5652.ContentType", Rfc5652.ContentType),
   ("rfc5652.EncryptedContent", Rfc5652.EncryptedContent),
   ("rfc5652.ContentEncryptionAlgorithmIdentifier", Rfc5652.ContentEncryptionAlgorithmIdentifier),
   ("rfc5652.EncryptedContentInfo__0", Rfc5652.EncryptedContentInfo__0),
   ("rfc5652.EncryptedContentInfo", Rfc5652.EncryptedContentInfo),
   ("rfc5652.UnprotectedAttributes__0", Rfc5652.UnprotectedAttributes__0),
   ("rfc5652.UnprotectedAttributes__1", Rfc5652.UnprotectedAttributes__1),
   ("rfc5652.UnprotectedAttributes", Rfc5652.UnprotectedAttributes),
   ("rfc5652.KeyEncryptionAlgorithmIdentifier", Rfc5652.KeyEncryptionAlgorithmIdentifier),
   ("rfc5652.KEKIdentifier__0", Rfc5652.KEKIdentifier__0),
   ("rfc5652.KEKIdentifier", Rfc5652.KEKIdentifier),
   ("rfc5652.KEKRecipientInfo__0", Rfc5652.KEKRecipientInfo__0),
   ("rfc5652.KEKRecipientInfo", Rfc5652.KEKRecipientInfo),
   ("rfc5652.KeyDerivationAlgorithmIdentifier", Rfc5652.KeyDerivationAlgorithmIdentifier),
   ("rfc5652.PasswordRecipientInfo__0", Rfc5652.PasswordRecipientInfo__0),
   ("rfc5652.PasswordRecipientInfo", Rfc5652.PasswordRecipientInfo),
   ("rfc5652.RecipientIdentifier__0", Rfc5652.RecipientIdentifier__0),
   ("rfc5652.RecipientIdentifier", Rfc5652.RecipientIdentifier),
   ("rfc5652.KeyTransRecipientInfo__0", Rfc5652.KeyTransRecipientInfo__0),
   ("rfc5652.KeyTransRecipientInfo", Rfc5652.KeyTransRecipientInfo),
   ("rfc5652.UserKeyingMaterial", Rfc5652.UserKeyingMaterial),
   ("rfc5652.OriginatorPublicKey__0", Rfc5652.OriginatorPublicKey__0),
   ("rfc5652.OriginatorPublicKey", Rfc5652.OriginatorPublicKey),
   ("rfc5652.OriginatorIdentifierOrKey__0", Rfc5652.OriginatorIdentifierOrKey__0),
   ("rfc5652.OriginatorIdentifierOrKey", Rfc5652.OriginatorIdentifierOrKey),
   ("rfc5652.KeyAgreeRecipientInfo__0", Rfc5652.KeyAgreeRecipientInfo__0),
   ("rfc5652.KeyAgreeRecipientInfo", Rfc5652.KeyAgreeRecipientInfo),
   ("rfc5652.OtherRecipientInfo__0", Rfc5652.OtherRecipientInfo__0),
   ("rfc5652.OtherRecipientInfo", Rfc5652.OtherRecipientInfo),
   ("rfc5652.RecipientInfo__0", Rfc5652.RecipientInfo__0),
   ("rfc5652.RecipientInfo", Rfc5652.RecipientInfo),
   ("rfc5652.RecipientInfos__0", Rfc5652.RecipientInfos__0),
   ("rfc5652.RecipientInfos__1", Rfc5652.RecipientInfos__1),
   ("rfc5652.RecipientInfos", Rfc5652.RecipientInfos),
   ("rfc5652.EnvelopedData__0", Rfc5652.EnvelopedData__0),
   ("rfc5652.EnvelopedData", Rfc5652.EnvelopedData),
   ("rfc5652.DigestAlgorithmIdentifier", Rfc5652.DigestAlgorithmIdentifier),
   ("rfc5652.id_ct_contentInfo", Rfc5652.id_ct_contentInfo),
   ("rfc5652.id_digestedData", Rfc5652.id_digestedData),
   ("rfc5652.EncryptedData__0", Rfc5652.EncryptedData__0),
   ("rfc5652.EncryptedData", Rfc5652.EncryptedData),
   ("rfc5652.id_messageDigest", Rfc5652.id_messageDigest),
   ("rfc5652.id_signedData", Rfc5652.id_signedData),
   ("rfc5652.MessageAuthenticationCodeAlgorithm", Rfc5652.MessageAuthenticationCodeAlgorithm),
   ("rfc5652.UnsignedAttributes__0", Rfc5652.UnsignedAttributes__0),
   ("rfc5652.UnsignedAttributes__1", Rfc5652.UnsignedAttributes__1),
   ("rfc5652.UnsignedAttributes", Rfc5652.UnsignedAttributes),
   ("rfc5652.SignerIdentifier__0", Rfc5652.SignerIdentifier__0),
   ("rfc5652.SignerIdentifier", Rfc5652.SignerIdentifier),
   ("rfc5652.SignerInfo__0", Rfc5652.SignerInfo__0),
   ("rfc5652.SignerInfo", Rfc5652.SignerInfo),
   ("rfc5652.SignerInfos__0", Rfc5652.SignerInfos__0),
   ("rfc5652.SignerInfos", Rfc5652.SignerInfos),
   ("rfc5652.Countersignature", Rfc5652.Countersignature),
   ("rfc5652.ContentInfo__0", Rfc5652.ContentInfo__0),
   ("rfc5652.ContentInfo", Rfc5652.ContentInfo),
   ("rfc5652.EncapsulatedContentInfo__0", Rfc5652.EncapsulatedContentInfo__0),
   ("rfc5652.EncapsulatedContentInfo", Rfc5652.EncapsulatedContentInfo),
   ("rfc5652.id_countersignature", Rfc5652.id_countersignature),
   ("rfc5652.id_data", Rfc5652.id_data),
   ("rfc5652.MessageDigest", Rfc5652.MessageDigest),
   ("rfc5652.AuthAttributes__0", Rfc5652.AuthAttributes__0),
   ("rfc5652.AuthAttributes__1", Rfc5652.AuthAttributes__1),
   ("rfc5652.AuthAttributes", Rfc5652.AuthAttributes),
   ("rfc5652.Time__0", Rfc5652.Time__0),
   ("rfc5652.Time", Rfc5652.Time),
   ("rfc5652.AuthenticatedData__0", Rfc5652.AuthenticatedData__0),
   ("rfc5652.AuthenticatedData", Rfc5652.AuthenticatedData),
   ("rfc5652.id_contentType", Rfc5652.id_contentType),
   ("rfc5652.ExtendedCertificateOrCertificate__0", Rfc5652.ExtendedCertificateOrCertificate__0),
   ("rfc5652.ExtendedCertificateOrCertificate", Rfc5652.ExtendedCertificateOrCertificate),
   ("rfc5652.Digest", Rfc5652.Digest),
   ("rfc5652.DigestedData__0", Rfc5652.DigestedData__0),
   ("rfc5652.DigestedData", Rfc5652.DigestedData),
   ("rfc5652.id_envelopedData", Rfc5652.id_envelopedData),
   ("rfc5652.DigestAlgorithmIdentifiers__0", Rfc5652.DigestAlgorithmIdentifiers__0),
   ("rfc5652.DigestAlgorithmIdentifiers", Rfc5652.DigestAlgorithmIdentifiers),
   ("rfc5652.SignedData__0", Rfc5652.SignedData__0),
   ("rfc5652.SignedData", Rfc5652.SignedData),
   ("rfc5652.id_signingTime", Rfc5652.id_signingTime),
   ("rfc5652.SigningTime", Rfc5652.SigningTime),
   ("rfc5652.id_ct_authData", Rfc5652.id_ct_authData)]

def Rfc5652.fills : List (String × Py.Proto) :=
  []

def Rfc5697.steps : List (String × Py.Obj) :=
  [("rfc5697.AlgorithmIdentifier", Rfc5697.AlgorithmIdentifier),
   ("rfc5697.CertificateSerialNumber", Rfc5697.CertificateSerialNumber),
   ("rfc5697.GeneralNames", Rfc5697.GeneralNames),
   ("rfc5697.id_sha1", Rfc5697.id_sha1),
   ("rfc5697.SCVPIssuerSerial", Rfc5697.SCVPIssuerSerial),
   ("rfc5697.SCVPCertID", Rfc5697.SCVPCertID),
   ("rfc5697.id_pe_otherCerts", Rfc5697.id_pe_otherCerts),
   ("rfc5697.OtherCertificates", Rfc5697.OtherCertificates)]

def Rfc5697.fills : List (String × Py.Proto) :=
  [("rfc5697.sha1_alg_id__0", Rfc5697.sha1_alg_id__0),
   ("rfc5697.sha1_alg_id", Rfc5697.sha1_alg_id)]

def Rfc5751.steps : List (String × Py.Obj) :=
  [("rfc5751.IssuerAndSerialNumber", Rfc5751.IssuerAndSerialNumber),
   ("rfc5751.RecipientKeyIdentifier", Rfc5751.RecipientKeyIdentifier),
   ("rfc5751.SubjectKeyIdentifier", Rfc5751.SubjectKeyIdentifier),
   ("rfc5751.rc2CBC", Rfc5751.rc2CBC),
   ("rfc5751.smimeCapabilities", Rfc5751.smimeCapabilities),
   ("rfc5751.SMIMECapability__0", Rfc5751.SMIMECapability__0),
   ("rfc5751.SMIMECapability", Rfc5751.SMIMECapability),
   ("rfc5751.SMIMECapabilities__0", Rfc5751.SMIMECapabilities__0),
   ("rfc5751.SMIMECapabilities", Rfc5751.SMIMECapabilities),
   ("rfc5751.SMIMECapabilitiesParametersForRC2CBC", Rfc5751.SMIMECapabilitiesParametersForRC2CBC),
   ("rfc5751.id_smime", Rfc5751.id_smime),
   ("rfc5751.id_aa", Rfc5751.id_aa),
   ("rfc5751.id_aa_encrypKeyPref", Rfc5751.id_aa_encrypKeyPref),
   ("rfc5751.SMIMEEncryptionKeyPreference__0", Rfc5751.SMIMEEncryptionKeyPreference__0),
   ("rfc5751.SMIMEEncryptionKeyPreference", Rfc5751.SMIMEEncryptionKeyPreference),
   ("rfc5751.id_cap", Rfc5751.id_cap),
   ("rfc5751.id_cap_preferBinaryInside", Rfc5751.id_cap_preferBinaryInside)]

def Rfc5751.fills : List (String × Py.Proto) :=
  []

def Rfc5752.steps : List (String × Py.Obj) :=
  [("rfc5752.SignAttrsHash", Rfc5752.SignAttrsHash),
   ("rfc5752.MultipleSignatures", Rfc5752.MultipleSignatures),
   ("rfc5752.id_aa_multipleSignatures", Rfc5752.id_aa_multipleSignatures)]

def Rfc5752.fills : List (String × Py.Proto) :=
  []

def Rfc5753.steps : List (String × Py.Obj) :=
  [("rfc5753.AlgorithmIdentifier", Rfc5753.AlgorithmIdentifier),
   ("rfc5753.OriginatorPublicKey", Rfc5753.OriginatorPublicKey),
   ("rfc5753.UserKeyingMaterial", Rfc5753.UserKeyingMaterial),
   ("rfc5753.ECDSA_Sig_Value", Rfc5753.ECDSA_Sig_Value),
   ("rfc5753.ECParameters", Rfc5753.ECParameters),
   ("rfc5753.ECPoint", Rfc5753.ECPoint),
   ("rfc5753.id_ecPublicKey", Rfc5753.id_ecPublicKey),
   ("rfc5753.id_hmacWithSHA224", Rfc5753.id_hmacWithSHA224),
   ("rfc5753.id_hmacWithSHA256", Rfc5753.id_hmacWithSHA256),
   ("rfc5753.id_hmacWithSHA384", Rfc5753.id_hmacWithSHA384),
   ("rfc5753.id_hmacWithSHA512", Rfc5753.id_hmacWithSHA512),
   ("rfc5753.x9_63_scheme", Rfc5753.x9_63_scheme),
   ("rfc5753.secg_scheme", Rfc5753.secg_scheme),
   ("rfc5753.dhSinglePass_cofactorDH_sha1kdf_scheme", Rfc5753.dhSinglePass_cofactorDH_sha1kdf_scheme),
   ("rfc5753.dhSinglePass_cofactorDH_sha224kdf_scheme", Rfc5753.dhSinglePass_cofactorDH_sha224kdf_scheme),
   ("rfc5753.dhSinglePass_cofactorDH_sha256kdf_scheme", Rfc5753.dhSinglePass_cofactorDH_sha256kdf_scheme),
   ("rfc5753.dhSinglePass_cofactorDH_sha384kdf_scheme", Rfc5753.dhSinglePass_cofactorDH_sha384kdf_scheme),
   ("rfc5753.dhSinglePass_cofactorDH_sha512kdf_scheme", Rfc5753.dhSinglePass_cofactorDH_sha512kdf_scheme),
   ("rfc5753.dhSinglePass_stdDH_sha1kdf_scheme", Rfc5753.dhSinglePass_stdDH_sha1kdf_scheme),
   ("rfc5753.dhSinglePass_stdDH_sha224kdf_scheme", Rfc5753.dhSinglePass_stdDH_sha224kdf_scheme),
   ("rfc5753.dhSinglePass_stdDH_sha256kdf_scheme", Rfc5753.dhSinglePass_stdDH_sha256kdf_scheme),
   ("rfc5753.dhSinglePass_stdDH_sha384kdf_scheme", Rfc5753.dhSinglePass_stdDH_sha384kdf_scheme),
   ("rfc5753.dhSinglePass_stdDH_sha512kdf_scheme", Rfc5753.dhSinglePass_stdDH_sha512kdf_scheme),
   ("rfc5753.mqvSinglePass_sha1kdf_scheme", Rfc5753.mqvSinglePass_sha1kdf_scheme),
   ("rfc5753.mqvSinglePass_sha224kdf_scheme", Rfc5753.mqvSinglePass_sha224kdf_scheme),
   ("rfc5753.mqvSinglePass_sha256kdf_scheme", Rfc5753.mqvSinglePass_sha256kdf_scheme),
   ("rfc5753.mqvSinglePass_sha384kdf_scheme", Rfc5753.mqvSinglePass_sha384kdf_scheme),
   ("rfc5753.mqvSinglePass_sha512kdf_scheme", Rfc5753.mqvSinglePass_sha512kdf_scheme),
   ("rfc5753.IV", Rfc5753.IV),
   ("rfc5753.CBCParameter", Rfc5753.CBCParameter),
   ("rfc5753.KeyWrapAlgorithm", Rfc5753.KeyWrapAlgorithm),
   ("rfc5753.ECC_CMS_SharedInfo", Rfc5753.ECC_CMS_SharedInfo),
   ("rfc5753.MQVuserKeyingMaterial", Rfc5753.MQVuserKeyingMaterial)]

def Rfc5753.fills : List (String × Py.Proto) :=
  []

def Rfc5755.steps : List (String × Py.Obj) :=
  [("rfc5755.ContentInfo", Rfc5755.ContentInfo),
   ("rfc5755.AlgorithmIdentifier", Rfc5755.AlgorithmIdentifier),
   ("rfc5755.Attribute", Rfc5755.Attribute),
   ("rfc5755.AuthorityInfoAccessSyntax", Rfc5755.AuthorityInfoAccessSyntax),
   ("rfc5755.AuthorityKeyIdentifier", Rfc5755.AuthorityKeyIdentifier),
   ("rfc5755.CertificateSerialNumber", Rfc5755.CertificateSerialNumber),
   ("rfc5755.CRLDistributionPoints", Rfc5755.CRLDistributionPoints),
   ("rfc5755.Extensions", Rfc5755.Extensions),
   ("rfc5755.Extension", Rfc5755.Extension),
   ("rfc5755.GeneralNames", Rfc5755.GeneralNames),
   ("rfc5755.GeneralName", Rfc5755.GeneralName),
   ("rfc5755.UniqueIdentifier", Rfc5755.UniqueIdentifier),
   ("rfc5755.id_pkix", Rfc5755.id_pkix),
   ("rfc5755.id_pe", Rfc5755.id_pe),
   ("rfc5755.id_kp", Rfc5755.id_kp),
   ("rfc5755.id_aca", Rfc5755.id_aca),
   ("rfc5755.id_ad", Rfc5755.id_ad),
   ("rfc5755.id_at", Rfc5755.id_at),
   ("rfc5755.id_ce", Rfc5755.id_ce),
   ("rfc5755.AttCertVersion", Rfc5755.AttCertVersion),
   ("rfc5755.IssuerSerial", Rfc5755.IssuerSerial),
   ("rfc5755.ObjectDigestInfo", Rfc5755.ObjectDigestInfo),
   ("rfc5755.Holder", Rfc5755.Holder),
   ("rfc5755.V2Form", Rfc5755.V2Form),
   ("rfc5755.AttCertIssuer", Rfc5755.AttCertIssuer),
   ("rfc5755.AttCertValidityPeriod", Rfc5755.AttCertValidityPeriod),
   ("rfc5755.AttributeCertificateInfo", Rfc5755.AttributeCertificateInfo),
   ("rfc5755.AttributeCertificate", Rfc5755.AttributeCertificate),
   ("rfc5755.id_pe_ac_auditIdentity", Rfc5755.id_pe_ac_auditIdentity),
   ("rfc5755.id_ce_noRevAvail", Rfc5755.id_ce_noRevAvail),
   ("rfc5755.id_ce_targetInformation", Rfc5755.id_ce_targetInformation),
   ("rfc5755.TargetCert", Rfc5755.TargetCert),
   ("rfc5755.Target", Rfc5755.Target),
   ("rfc5755.Targets", Rfc5755.Targets),
   ("rfc5755.id_pe_ac_proxying", Rfc5755.id_pe_ac_proxying),
   ("rfc5755.ProxyInfo", Rfc5755.ProxyInfo),
   ("rfc5755.id_pe_aaControls", Rfc5755.id_pe_aaControls),
   ("rfc5755.AttrSpec", Rfc5755.AttrSpec),
   ("rfc5755.AAControls", Rfc5755.AAControls),
   ("rfc5755.id_aca_authenticationInfo", Rfc5755.id_aca_authenticationInfo),
   ("rfc5755.id_aca_accessIdentity", Rfc5755.id_aca_accessIdentity),
   ("rfc5755.SvceAuthInfo", Rfc5755.SvceAuthInfo),
   ("rfc5755.id_aca_chargingIdentity", Rfc5755.id_aca_chargingIdentity),
   ("rfc5755.id_aca_group", Rfc5755.id_aca_group),
   ("rfc5755.IetfAttrSyntax", Rfc5755.IetfAttrSyntax),
   ("rfc5755.id_at_role", Rfc5755.id_at_role),
   ("rfc5755.RoleSyntax", Rfc5755.RoleSyntax),
   ("rfc5755.ClassList", Rfc5755.ClassList),
   ("rfc5755.SecurityCategory", Rfc5755.SecurityCategory),
   ("rfc5755.id_at_clearance", Rfc5755.id_at_clearance),
   ("rfc5755.Clearance", Rfc5755.Clearance),
   ("rfc5755.id_at_clearance_rfc3281", Rfc5755.id_at_clearance_rfc3281),
   ("rfc5755.Clearance_rfc3281", Rfc5755.Clearance_rfc3281),
   ("rfc5755.id_aca_encAttrs", Rfc5755.id_aca_encAttrs),
   ("rfc5755.ACClearAttrs", Rfc5755.ACClearAttrs)]

def Rfc5755.fills : List (String × Py.Proto) :=
  []

def Rfc5913.steps : List (String × Py.Obj) :=
  [("rfc5913.id_pe_clearanceConstraints", Rfc5913.id_pe_clearanceConstraints),
   ("rfc5913.id_pe_authorityClearanceConstraints", Rfc5913.id_pe_authorityClearanceConstraints),
   ("rfc5913.AuthorityClearanceConstraints", Rfc5913.AuthorityClearanceConstraints)]

def Rfc5913.fills : List (String × Py.Proto) :=
  []

def Rfc5914.steps : List (String × Py.Obj) :=
  [("rfc5914.Certificate", Rfc5914.Certificate),
   ("rfc5914.Name", Rfc5914.Name),
   ("rfc5914.Extensions", Rfc5914.Extensions),
   ("rfc5914.SubjectPublicKeyInfo", Rfc5914.SubjectPublicKeyInfo),
   ("rfc5914.TBSCertificate", Rfc5914.TBSCertificate),
   ("rfc5914.CertificatePolicies", Rfc5914.CertificatePolicies),
   ("rfc5914.KeyIdentifier", Rfc5914.KeyIdentifier),
   ("rfc5914.NameConstraints", Rfc5914.NameConstraints),
   ("rfc5914.CertPolicyFlags__0", Rfc5914.CertPolicyFlags__0),
   ("rfc5914.CertPolicyFlags", Rfc5914.CertPolicyFlags),
   ("rfc5914.CertPathControls__0", Rfc5914.CertPathControls__0),
   ("rfc5914.CertPathControls", Rfc5914.CertPathControls),
   ("rfc5914.TrustAnchorTitle__0", Rfc5914.TrustAnchorTitle__0),
   ("rfc5914.TrustAnchorTitle", Rfc5914.TrustAnchorTitle),
   ("rfc5914.TrustAnchorInfoVersion__0", Rfc5914.TrustAnchorInfoVersion__0),
   ("rfc5914.TrustAnchorInfoVersion", Rfc5914.TrustAnchorInfoVersion),
   ("rfc5914.TrustAnchorInfo__0", Rfc5914.TrustAnchorInfo__0),
   ("rfc5914.TrustAnchorInfo", Rfc5914.TrustAnchorInfo),
   ("rfc5914.TrustAnchorChoice__0", Rfc5914.TrustAnchorChoice__0),
   ("rfc5914.TrustAnchorChoice", Rfc5914.TrustAnchorChoice),
   ("rfc5914.id_ct_trustAnchorList", Rfc5914.id_ct_trustAnchorList),
   ("rfc5914.TrustAnchorList__0", Rfc5914.TrustAnchorList__0),
   ("rfc5914.TrustAnchorList__1", Rfc5914.TrustAnchorList__1),
   ("rfc5914.TrustAnchorList", Rfc5914.TrustAnchorList)]

def Rfc5914.fills : List (String × Py.Proto) :=
  []

def Rfc5915.steps : List (String × Py.Obj) :=
  [("rfc5915.ECPrivateKey__0", Rfc5915.ECPrivateKey__0),
   ("rfc5915.ECPrivateKey", Rfc5915.ECPrivateKey)]

def Rfc5915.fills : List (String × Py.Proto) :=
  []

def Rfc5916.steps : List (String × Py.Obj) :=
  [("rfc5916.id_deviceOwner", Rfc5916.id_deviceOwner)]

def Rfc5916.fills : List (String × Py.Proto) :=
  [("rfc5916.at_deviceOwner__0", Rfc5916.at_deviceOwner__0),
   ("rfc5916.at_deviceOwner__1", Rfc5916.at_deviceOwner__1),
   ("rfc5916.at_deviceOwner", Rfc5916.at_deviceOwner)]

def Rfc5917.steps : List (String × Py.Obj) :=
  [("rfc5917.DirectoryString", Rfc5917.DirectoryString),
   ("rfc5917.id_clearanceSponsor", Rfc5917.id_clearanceSponsor),
   ("rfc5917.ub_clearance_sponsor", Rfc5917.ub_clearance_sponsor)]

def Rfc5917.fills : List (String × Py.Proto) :=
  [("rfc5917.at_clearanceSponsor__0", Rfc5917.at_clearanceSponsor__0),
   ("rfc5917.at_clearanceSponsor__1", Rfc5917.at_clearanceSponsor__1),
   ("rfc5917.at_clearanceSponsor", Rfc5917.at_clearanceSponsor)]

def Rfc5924.steps : List (String × Py.Obj) :=
  [("rfc5924.id_kp", Rfc5924.id_kp),
   ("rfc5924.id_kp_sipDomain", Rfc5924.id_kp_sipDomain)]

def Rfc5924.fills : List (String × Py.Proto) :=
  []

def Rfc5934.steps : List (String × Py.Obj) :=
  [("rfc5934.SingleAttribute", Rfc5934.SingleAttribute),
   ("rfc5934.CertPathControls", Rfc5934.CertPathControls),
   ("rfc5934.TrustAnchorChoice", Rfc5934.TrustAnchorChoice),
   ("rfc5934.TrustAnchorTitle", Rfc5934.TrustAnchorTitle),
   ("rfc5934.AlgorithmIdentifier", Rfc5934.AlgorithmIdentifier),
   ("rfc5934.AnotherName", Rfc5934.AnotherName),
   ("rfc5934.Attribute", Rfc5934.Attribute),
   ("rfc5934.Certificate", Rfc5934.Certificate),
   ("rfc5934.CertificateSerialNumber", Rfc5934.CertificateSerialNumber),
   ("rfc5934.Extension", Rfc5934.Extension),
   ("rfc5934.Extensions", Rfc5934.Extensions),
   ("rfc5934.KeyIdentifier", Rfc5934.KeyIdentifier),
   ("rfc5934.Name", Rfc5934.Name),
   ("rfc5934.SubjectPublicKeyInfo", Rfc5934.SubjectPublicKeyInfo),
   ("rfc5934.TBSCertificate", Rfc5934.TBSCertificate),
   ("rfc5934.Validity", Rfc5934.Validity),
   ("rfc5934.id_tamp", Rfc5934.id_tamp),
   ("rfc5934.id_ct_TAMP_statusQuery", Rfc5934.id_ct_TAMP_statusQuery),
   ("rfc5934.TAMPVersion__0", Rfc5934.TAMPVersion__0),
   ("rfc5934.TAMPVersion", Rfc5934.TAMPVersion),
   ("rfc5934.TerseOrVerbose__0", Rfc5934.TerseOrVerbose__0),
   ("rfc5934.TerseOrVerbose", Rfc5934.TerseOrVerbose),
   ("rfc5934.HardwareSerialEntry__0", Rfc5934.HardwareSerialEntry__0),
   ("rfc5934.HardwareSerialEntry", Rfc5934.HardwareSerialEntry),
   ("rfc5934.HardwareModules__0", Rfc5934.HardwareModules__0),
   ("rfc5934.HardwareModules", Rfc5934.HardwareModules),
   ("rfc5934.HardwareModuleIdentifierList__0", Rfc5934.HardwareModuleIdentifierList__0),
   ("rfc5934.HardwareModuleIdentifierList__1", Rfc5934.HardwareModuleIdentifierList__1),
   ("rfc5934.HardwareModuleIdentifierList", Rfc5934.HardwareModuleIdentifierList),
   ("rfc5934.Community", Rfc5934.Community),
   ("rfc5934.CommunityIdentifierList__0", Rfc5934.CommunityIdentifierList__0),
   ("rfc5934.CommunityIdentifierList__1", Rfc5934.CommunityIdentifierList__1),
   ("rfc5934.CommunityIdentifierList", Rfc5934.CommunityIdentifierList),
   ("rfc5934.TargetIdentifier__0", Rfc5934.TargetIdentifier__0),
   ("rfc5934.TargetIdentifier", Rfc5934.TargetIdentifier),
   ("rfc5934.SeqNumber__0", Rfc5934.SeqNumber__0),
   ("rfc5934.SeqNumber", Rfc5934.SeqNumber),
   ("rfc5934.TAMPMsgRef__0", Rfc5934.TAMPMsgRef__0),
   ("rfc5934.TAMPMsgRef", Rfc5934.TAMPMsgRef),
   ("rfc5934.TAMPStatusQuery__0", Rfc5934.TAMPStatusQuery__0),
   ("rfc5934.TAMPStatusQuery", Rfc5934.TAMPStatusQuery),
   ("rfc5934.id_ct_TAMP_statusResponse", Rfc5934.id_ct_TAMP_statusResponse),
   ("rfc5934.KeyIdentifiers__0", Rfc5934.KeyIdentifiers__0),
   ("rfc5934.KeyIdentifiers__1", Rfc5934.KeyIdentifiers__1),
   ("rfc5934.KeyIdentifiers", Rfc5934.KeyIdentifiers),
   ("rfc5934.TrustAnchorChoiceList__0", Rfc5934.TrustAnchorChoiceList__0),
   ("rfc5934.TrustAnchorChoiceList__1", Rfc5934.TrustAnchorChoiceList__1),
   ("rfc5934.TrustAnchorChoiceList", Rfc5934.TrustAnchorChoiceList),
   ("rfc5934.TAMPSequenceNumber__0", Rfc5934.TAMPSequenceNumber__0),
   ("rfc5934.TAMPSequenceNumber", Rfc5934.TAMPSequenceNumber),
   ("rfc5934.TAMPSequenceNumbers__0", Rfc5934.TAMPSequenceNumbers__0),
   ("rfc5934.TAMPSequenceNumbers__1", Rfc5934.TAMPSequenceNumbers__1),
   ("rfc5934.TAMPSequenceNumbers", Rfc5934.TAMPSequenceNumbers),
   ("rfc5934.TerseStatusResponse__0", Rfc5934.TerseStatusResponse__0),
   ("rfc5934.TerseStatusResponse", Rfc5934.TerseStatusResponse),
   ("rfc5934.VerboseStatusResponse__0", Rfc5934.VerboseStatusResponse__0),
   ("rfc5934.VerboseStatusResponse", Rfc5934.VerboseStatusResponse),
   ("rfc5934.StatusResponse__0", Rfc5934.StatusResponse__0),
   ("rfc5934.StatusResponse", Rfc5934.StatusResponse),
   ("rfc5934.TAMPStatusResponse__0", Rfc5934.TAMPStatusResponse__0),
   ("rfc5934.TAMPStatusResponse", Rfc5934.TAMPStatusResponse),
   ("rfc5934.id_ct_TAMP_update", Rfc5934.id_ct_TAMP_update),
   ("rfc5934.TBSCertificateChangeInfo__0", Rfc5934.TBSCertificateChangeInfo__0),
   ("rfc5934.TBSCertificateChangeInfo", Rfc5934.TBSCertificateChangeInfo),
   ("rfc5934.TrustAnchorChangeInfo__0", Rfc5934.TrustAnchorChangeInfo__0),
   ("rfc5934.TrustAnchorChangeInfo", Rfc5934.TrustAnchorChangeInfo),
   ("rfc5934.TrustAnchorChangeInfoChoice__0", Rfc5934.TrustAnchorChangeInfoChoice__0),
   ("rfc5934.TrustAnchorChangeInfoChoice", Rfc5934.TrustAnchorChangeInfoChoice),
   ("rfc5934.TrustAnchorUpdate__0", Rfc5934.TrustAnchorUpdate__0),
   ("rfc5934.TrustAnchorUpdate", Rfc5934.TrustAnchorUpdate),
   ("rfc5934.TAMPUpdate__0", Rfc5934.TAMPUpdate__0),
   ("rfc5934.TAMPUpdate", Rfc5934.TAMPUpdate),
   ("rfc5934.id_ct_TAMP_updateConfirm", Rfc5934.id_ct_TAMP_updateConfirm),
   ("rfc5934.StatusCode__0", Rfc5934.StatusCode__0),
   ("rfc5934.StatusCode", Rfc5934.StatusCode),
   ("rfc5934.StatusCodeList__0", Rfc5934.StatusCodeList__0),
   ("rfc5934.StatusCodeList__1", Rfc5934.StatusCodeList__1),
   ("rfc5934.StatusCodeList", Rfc5934.StatusCodeList),
   ("rfc5934.TerseUpdateConfirm", Rfc5934.TerseUpdateConfirm),
   ("rfc5934.VerboseUpdateConfirm__0", Rfc5934.VerboseUpdateConfirm__0),
   ("rfc5934.VerboseUpdateConfirm", Rfc5934.VerboseUpdateConfirm),
   ("rfc5934.UpdateConfirm__0", Rfc5934.UpdateConfirm__0),
   ("rfc5934.UpdateConfirm", Rfc5934.UpdateConfirm),
   ("rfc5934.TAMPUpdateConfirm__0", Rfc5934.TAMPUpdateConfirm__0),
   ("rfc5934.TAMPUpdateConfirm", Rfc5934.TAMPUpdateConfirm),
   ("rfc5934.id_ct_TAMP_apexUpdate", Rfc5934.id_ct_TAMP_apexUpdate),
   ("rfc5934.TAMPApexUpdate__0", Rfc5934.TAMPApexUpdate__0),
   ("rfc5934.TAMPApexUpdate", Rfc5934.TAMPApexUpdate),
   ("rfc5934.id_ct_TAMP_apexUpdateConfirm", Rfc5934.id_ct_TAMP_apexUpdateConfirm),
   ("rfc5934.TerseApexUpdateConfirm", Rfc5934.TerseApexUpdateConfirm),
   ("rfc5934.VerboseApexUpdateConfirm__0", Rfc5934.VerboseApexUpdateConfirm__0),
   ("rfc5934.VerboseApexUpdateConfirm", Rfc5934.VerboseApexUpdateConfirm),
   ("rfc5934.ApexUpdateConfirm__0", Rfc5934.ApexUpdateConfirm__0),
   ("rfc5934.ApexUpdateConfirm", Rfc5934.ApexUpdateConfirm),
   ("rfc5934.TAMPApexUpdateConfirm__0", Rfc5934.TAMPApexUpdateConfirm__0),
   ("rfc5934.TAMPApexUpdateConfirm", Rfc5934.TAMPApexUpdateConfirm),
   ("rfc5934.id_ct_TAMP_communityUpdate", Rfc5934.id_ct_TAMP_communityUpdate),
   ("rfc5934.CommunityUpdates__0", Rfc5934.CommunityUpdates__0),
   ("rfc5934.CommunityUpdates", Rfc5934.CommunityUpdates),
   ("rfc5934.TAMPCommunityUpdate__0", Rfc5934.TAMPCommunityUpdate__0),
   ("rfc5934.TAMPCommunityUpdate", Rfc5934.TAMPCommunityUpdate),
   ("rfc5934.id_ct_TAMP_communityUpdateConfirm", Rfc5934.id_ct_TAMP_communityUpdateConfirm),
   ("rfc5934.TerseCommunityConfirm", Rfc5934.TerseCommunityConfirm),
   ("rfc5934.VerboseCommunityConfirm__0", Rfc5934.VerboseCommunityConfirm__0),
   ("rfc5934.VerboseCommunityConfirm", Rfc5934.VerboseCommunityConfirm),
   ("rfc5934.CommunityConfirm__0", Rfc5934.CommunityConfirm__0),
   ("rfc5934.CommunityConfirm", Rfc5934.CommunityConfirm),
   ("rfc5934.TAMPCommunityUpdateConfirm__0", Rfc5934.TAMPCommunityUpdateConfirm__0),
   ("rfc5934.TAMPCommunityUpdateConfirm", Rfc5934.TAMPCommunityUpdateConfirm),
   ("rfc5934.id_ct_TAMP_seqNumAdjust", Rfc5934.id_ct_TAMP_seqNumAdjust),
   ("rfc5934.SequenceNumberAdjust__0", Rfc5934.SequenceNumberAdjust__0),
   ("rfc5934.SequenceNumberAdjust", Rfc5934.SequenceNumberAdjust),
   ("rfc5934.id_ct_TAMP_seqNumAdjustConfirm", Rfc5934.id_ct_TAMP_seqNumAdjustConfirm),
   ("rfc5934.SequenceNumberAdjustConfirm__0", Rfc5934.SequenceNumberAdjustConfirm__0),
   ("rfc5934.SequenceNumberAdjustConfirm", Rfc5934.SequenceNumberAdjustConfirm),
   ("rfc5934.id_ct_TAMP_error", Rfc5934.id_ct_TAMP_error),
   ("rfc5934.TAMPError__0", Rfc5934.TAMPError__0),
   ("rfc5934.TAMPError", Rfc5934.TAMPError),
   ("rfc5934.id_attributes", Rfc5934.id_attributes),
   ("rfc5934.id_aa_TAMP_contingencyPublicKeyDecryptKey", Rfc5934.id_aa_TAMP_contingencyPublicKeyDecryptKey),
   ("rfc5934.PlaintextSymmetricKey", Rfc5934.PlaintextSymmetricKey),
   ("rfc5934.id_pe_wrappedApexContinKey", Rfc5934.id_pe_wrappedApexContinKey),
   ("rfc5934.ApexContingencyKey__0", Rfc5934.ApexContingencyKey__0),
   ("rfc5934.ApexContingencyKey", Rfc5934.ApexContingencyKey)]

def Rfc5934.fills : List (String × Py.Proto) :=
  [("rfc5934.tamp_status_query__0", Rfc5934.tamp_status_query__0),
   ("rfc5934.tamp_status_query__1", Rfc5934.tamp_status_query__1),
   ("rfc5934.tamp_status_query", Rfc5934.tamp_status_query),
   ("rfc5934.tamp_status_response__0", Rfc5934.tamp_status_response__0),
   ("rfc5934.tamp_status_response__1", Rfc5934.tamp_status_response__1),
   ("rfc5934.tamp_status_response", Rfc5934.tamp_status_response),
   ("rfc5934.tamp_update__0", Rfc5934.tamp_update__0),
   ("rfc5934.tamp_update__1", Rfc5934.tamp_update__1),
   ("rfc5934.tamp_update", Rfc5934.tamp_update),
   ("rfc5934.tamp_update_confirm__0", Rfc5934.tamp_update_confirm__0),
   ("rfc5934.tamp_update_confirm__1", Rfc5934.tamp_update_confirm__1),
   ("rfc5934.tamp_update_confirm", Rfc5934.tamp_update_confirm),
   ("rfc5934.tamp_apex_update__0", Rfc5934.tamp_apex_update__0),
   ("rfc5934.tamp_apex_update__1", Rfc5934.tamp_apex_update__1),
   ("rfc5934.tamp_apex_update", Rfc5934.tamp_apex_update),
   ("rfc5934.tamp_apex_update_confirm__0", Rfc5934.tamp_apex_update_confirm__0),
   ("rfc5934.tamp_apex_update_confirm__1", Rfc5934.tamp_apex_update_confirm__1),
   ("rfc5934.tamp_apex_update_confirm", Rfc5934.tamp_apex_update_confirm),
   ("rfc5934.tamp_community_update__0", Rfc5934.tamp_community_update__0),
   ("rfc5934.tamp_community_update__1", Rfc5934.tamp_community_update__1),
   ("rfc5934.tamp_community_update", Rfc5934.tamp_community_update),
   ("rfc5934.tamp_community_update_confirm__0", Rfc5934.tamp_community_update_confirm__0),
   ("rfc5934.tamp_community_update_confirm__1", Rfc5934.tamp_community_update_confirm__1),
   ("rfc5934.tamp_community_update_confirm", Rfc5934.tamp_community_update_confirm),
   ("rfc5934.tamp_sequence_number_adjust__0", Rfc5934.tamp_sequence_number_adjust__0),
   ("rfc5934.tamp_sequence_number_adjust__1", Rfc5934.tamp_sequence_number_adjust__1),
   ("rfc5934.tamp_sequence_number_adjust", Rfc5934.tamp_sequence_number_adjust),
   ("rfc5934.tamp_sequence_number_adjust_confirm__0", Rfc5934.tamp_sequence_number_adjust_confirm__0),
   ("rfc5934.tamp_sequence_number_adjust_confirm__1", Rfc5934.tamp_sequence_number_adjust_confirm__1),
   ("rfc5934.tamp_sequence_number_adjust_confirm", Rfc5934.tamp_sequence_number_adjust_confirm),
   ("rfc5934.tamp_error__0", Rfc5934.tamp_error__0),
   ("rfc5934.tamp_error__1", Rfc5934.tamp_error__1),
   ("rfc5934.tamp_error", Rfc5934.tamp_error),
   ("rfc5934.contingency_public_key_decrypt_key__0", Rfc5934.contingency_public_key_decrypt_key__0),
   ("rfc5934.contingency_public_key_decrypt_key__1", Rfc5934.contingency_public_key_decrypt_key__1),
   ("rfc5934.contingency_public_key_decrypt_key", Rfc5934.contingency_public_key_decrypt_key),
   ("rfc5934.wrappedApexContinKey__0", Rfc5934.wrappedApexContinKey__0),
   ("rfc5934.wrappedApexContinKey__1", Rfc5934.wrappedApexContinKey__1),
   ("rfc5934.wrappedApexContinKey__2", Rfc5934.wrappedApexContinKey__2),
   ("rfc5934.wrappedApexContinKey", Rfc5934.wrappedApexContinKey)]

def Rfc5940.steps : List (String × Py.Obj) :=
  [("rfc5940.id_ri_ocsp_response", Rfc5940.id_ri_ocsp_response),
   ("rfc5940.OCSPResponse", Rfc5940.OCSPResponse),
   ("rfc5940.id_ri_scvp", Rfc5940.id_ri_scvp),
   ("rfc5940.ContentInfo", Rfc5940.ContentInfo),
   ("rfc5940.SCVPReqRes__0", Rfc5940.SCVPReqRes__0),
   ("rfc5940.SCVPReqRes", Rfc5940.SCVPReqRes)]

def Rfc5940.fills : List (String × Py.Proto) :=
  []

def Rfc5958.steps : List (String × Py.Obj) :=
  [("rfc5958.KeyEncryptionAlgorithmIdentifier", Rfc5958.KeyEncryptionAlgorithmIdentifier),
   ("rfc5958.PrivateKeyAlgorithmIdentifier", Rfc5958.PrivateKeyAlgorithmIdentifier),
   ("rfc5958.EncryptedData", Rfc5958.EncryptedData),
   ("rfc5958.EncryptedPrivateKeyInfo", Rfc5958.EncryptedPrivateKeyInfo),
   ("rfc5958.Version", Rfc5958.Version),
   ("rfc5958.PrivateKey", Rfc5958.PrivateKey),
   ("rfc5958.Attributes", Rfc5958.Attributes),
   ("rfc5958.PublicKey", Rfc5958.PublicKey),
   ("rfc5958.OneAsymmetricKey", Rfc5958.OneAsymmetricKey),
   ("rfc5958.PrivateKeyInfo", Rfc5958.PrivateKeyInfo),
   ("rfc5958.id_ct_KP_aKeyPackage", Rfc5958.id_ct_KP_aKeyPackage),
   ("rfc5958.AsymmetricKeyPackage__0", Rfc5958.AsymmetricKeyPackage__0),
   ("rfc5958.AsymmetricKeyPackage__1", Rfc5958.AsymmetricKeyPackage__1),
   ("rfc5958.AsymmetricKeyPackage", Rfc5958.AsymmetricKeyPackage)]

def Rfc5958.fills : List (String × Py.Proto) :=
  []

def Rfc5990.steps : List (String × Py.Obj) :=
  [("rfc5990.AlgorithmIdentifier", Rfc5990.AlgorithmIdentifier),
   ("rfc5990.NullParms", Rfc5990.NullParms),
   ("rfc5990.is18033_2", Rfc5990.is18033_2),
   ("rfc5990.nistAlgorithm", Rfc5990.nistAlgorithm),
   ("rfc5990.pkcs_1", Rfc5990.pkcs_1),
   ("rfc5990.x9_44", Rfc5990.x9_44),
   ("rfc5990.x9_44_components", Rfc5990.x9_44_components),
   ("rfc5990.Camellia_KeyWrappingScheme", Rfc5990.Camellia_KeyWrappingScheme),
   ("rfc5990.DataEncapsulationMechanism", Rfc5990.DataEncapsulationMechanism),
   ("rfc5990.KDF2_HashFunction", Rfc5990.KDF2_HashFunction),
   ("rfc5990.KDF3_HashFunction", Rfc5990.KDF3_HashFunction),
   ("rfc5990.KeyDerivationFunction", Rfc5990.KeyDerivationFunction),
   ("rfc5990.KeyEncapsulationMechanism", Rfc5990.KeyEncapsulationMechanism),
   ("rfc5990.X9_SymmetricKeyWrappingScheme", Rfc5990.X9_SymmetricKeyWrappingScheme),
   ("rfc5990.id_rsa_kem", Rfc5990.id_rsa_kem),
   ("rfc5990.GenericHybridParameters__0", Rfc5990.GenericHybridParameters__0),
   ("rfc5990.GenericHybridParameters", Rfc5990.GenericHybridParameters),
   ("rfc5990.id_kem_rsa", Rfc5990.id_kem_rsa),
   ("rfc5990.KeyLength__0", Rfc5990.KeyLength__0),
   ("rfc5990.KeyLength", Rfc5990.KeyLength),
   ("rfc5990.RsaKemParameters__0", Rfc5990.RsaKemParameters__0),
   ("rfc5990.RsaKemParameters", Rfc5990.RsaKemParameters),
   ("rfc5990.id_kdf_kdf2", Rfc5990.id_kdf_kdf2),
   ("rfc5990.id_kdf_kdf3", Rfc5990.id_kdf_kdf3),
   ("rfc5990.id_sha1", Rfc5990.id_sha1),
   ("rfc5990.id_sha224", Rfc5990.id_sha224),
   ("rfc5990.id_sha256", Rfc5990.id_sha256),
   ("rfc5990.id_sha384", Rfc5990.id_sha384),
   ("rfc5990.id_sha512", Rfc5990.id_sha512),
   ("rfc5990.id_aes128_Wrap", Rfc5990.id_aes128_Wrap),
   ("rfc5990.id_aes192_Wrap", Rfc5990.id_aes192_Wrap),
   ("rfc5990.id_aes256_Wrap", Rfc5990.id_aes256_Wrap),
   ("rfc5990.id_alg_CMS3DESwrap", Rfc5990.id_alg_CMS3DESwrap),
   ("rfc5990.id_camellia128_Wrap", Rfc5990.id_camellia128_Wrap),
   ("rfc5990.id_camellia192_Wrap", Rfc5990.id_camellia192_Wrap),
   ("rfc5990.id_camellia256_Wrap", Rfc5990.id_camellia256_Wrap)]

def Rfc5990.fills : List (String × Py.Proto) :=
  [("rfc5990.rsa_kem__0", Rfc5990.rsa_kem__0),
   ("rfc5990.rsa_kem__1", Rfc5990.rsa_kem__1),
   ("rfc5990.rsa_kem", Rfc5990.rsa_kem),
   ("rfc5990.kem_rsa__0", Rfc5990.kem_rsa__0),
   ("rfc5990.kem_rsa__1", Rfc5990.kem_rsa__1),
   ("rfc5990.kem_rsa", Rfc5990.kem_rsa),
   ("rfc5990.kdf2__0", Rfc5990.kdf2__0),
   ("rfc5990.kdf2__1", Rfc5990.kdf2__1),
   ("rfc5990.kdf2", Rfc5990.kdf2),
   ("rfc5990.kdf3__0", Rfc5990.kdf3__0),
   ("rfc5990.kdf3__1", Rfc5990.kdf3__1),
   ("rfc5990.kdf3", Rfc5990.kdf3),
   ("rfc5990.sha1__0", Rfc5990.sha1__0),
   ("rfc5990.sha1__1", Rfc5990.sha1__1),
   ("rfc5990.sha1", Rfc5990.sha1),
   ("rfc5990.sha224__0", Rfc5990.sha224__0),
   ("rfc5990.sha224__1", Rfc5990.sha224__1),
   ("rfc5990.sha224", Rfc5990.sha224),
   ("rfc5990.sha256__0", Rfc5990.sha256__0),
   ("rfc5990.sha256__1", Rfc5990.sha256__1),
   ("rfc5990.sha256", Rfc5990.sha256),
   ("rfc5990.sha384__0", Rfc5990.sha384__0),
   ("rfc5990.sha384__1", Rfc5990.sha384__1),
   ("rfc5990.sha384", Rfc5990.sha384),
   ("rfc5990.sha512__0", Rfc5990.sha512__0),
   ("rfc5990.sha512__1", Rfc5990.sha512__1),
   ("rfc5990.sha512", Rfc5990.sha512),
   ("rfc5990.aes128_Wrap__0", Rfc5990.aes128_Wrap__0),
   ("rfc5990.aes128_Wrap", Rfc5990.aes128_Wrap),
   ("rfc5990.aes192_Wrap__0", Rfc5990.aes192_Wrap__0),
   ("rfc5990.aes192_Wrap", Rfc5990.aes192_Wrap),
   ("rfc5990.aes256_Wrap__0", Rfc5990.aes256_Wrap__0),
   ("rfc5990.aes256_Wrap", Rfc5990.aes256_Wrap),
   ("rfc5990.tdes_Wrap__0", Rfc5990.tdes_Wrap__0),
   ("rfc5990.tdes_Wrap__1", Rfc5990.tdes_Wrap__1),
   ("rfc5990.tdes_Wrap", Rfc5990.tdes_Wrap),
   ("rfc5990.camellia128_Wrap__0", Rfc5990.camellia128_Wrap__0),
   ("rfc5990.camellia128_Wrap", Rfc5990.camellia128_Wrap),
   ("rfc5990.camellia192_Wrap__0", Rfc5990.camellia192_Wrap__0),
   ("rfc5990.camellia192_Wrap", Rfc5990.camellia192_Wrap),
   ("rfc5990.camellia256_Wrap__0", Rfc5990.camellia256_Wrap__0),
   ("rfc5990.camellia256_Wrap", Rfc5990.camellia256_Wrap)]

def Rfc6010.steps : List (String × Py.Obj) :=
  [("rfc6010.AttributeType", Rfc6010.AttributeType),
   ("rfc6010.AttributeValue", Rfc6010.AttributeValue),
   ("rfc6010.id_ct_anyContentType", Rfc6010.id_ct_anyContentType),
   ("rfc6010.AttrConstraint__0", Rfc6010.AttrConstraint__0),
   ("rfc6010.AttrConstraint", Rfc6010.AttrConstraint),
   ("rfc6010.AttrConstraintList__0", Rfc6010.AttrConstraintList__0),
   ("rfc6010.AttrConstraintList__1", Rfc6010.AttrConstraintList__1),
   ("rfc6010.AttrConstraintList", Rfc6010.AttrConstraintList),
   ("rfc6010.ContentTypeGeneration__0", Rfc6010.ContentTypeGeneration__0),
   ("rfc6010.ContentTypeGeneration", Rfc6010.ContentTypeGeneration),
   ("rfc6010.ContentTypeConstraint__0", Rfc6010.ContentTypeConstraint__0),
   ("rfc6010.ContentTypeConstraint", Rfc6010.ContentTypeConstraint),
   ("rfc6010.id_pe_cmsContentConstraints", Rfc6010.id_pe_cmsContentConstraints),
   ("rfc6010.CMSContentConstraints__0", Rfc6010.CMSContentConstraints__0),
   ("rfc6010.CMSContentConstraints__1", Rfc6010.CMSContentConstraints__1),
   ("rfc6010.CMSContentConstraints", Rfc6010.CMSContentConstraints)]

def Rfc6010.fills : List (String × Py.Proto) :=
  []

def Rfc6019.steps : List (String × Py.Obj) :=
  [("rfc6019.BinaryTime__0", Rfc6019.BinaryTime__0),
   ("rfc6019.BinaryTime", Rfc6019.BinaryTime),
   ("rfc6019.id_aa_binarySigningTime", Rfc6019.id_aa_binarySigningTime),
   ("rfc6019.BinarySigningTime", Rfc6019.BinarySigningTime)]

def Rfc6019.fills : List (String × Py.Proto) :=
  []

def Rfc6031.steps : List (String × Py.Obj) :=
  [("rfc6031.id_pskc", Rfc6031.id_pskc),
   ("rfc6031.id_pskc_manufacturer", Rfc6031.id_pskc_manufacturer),
   ("rfc6031.at_pskc_manufacturer", Rfc6031.at_pskc_manufacturer),
   ("rfc6031.id_pskc_serialNo", Rfc6031.id_pskc_serialNo),
   ("rfc6031.at_pskc_serialNo", Rfc6031.at_pskc_serialNo),
   ("rfc6031.id_pskc_model", Rfc6031.id_pskc_model),
   ("rfc6031.at_pskc_model", Rfc6031.at_pskc_model),
   ("rfc6031.id_pskc_issueNo", Rfc6031.id_pskc_issueNo),
   ("rfc6031.at_pskc_issueNo", Rfc6031.at_pskc_issueNo),
   ("rfc6031.id_pskc_deviceBinding", Rfc6031.id_pskc_deviceBinding),
   ("rfc6031.at_pskc_deviceBinding", Rfc6031.at_pskc_deviceBinding),
   ("rfc6031.id_pskc_deviceStartDate", Rfc6031.id_pskc_deviceStartDate),
   ("rfc6031.at_pskc_deviceStartDate", Rfc6031.at_pskc_deviceStartDate),
   ("rfc6031.id_pskc_deviceExpiryDate", Rfc6031.id_pskc_deviceExpiryDate),
   ("rfc6031.at_pskc_deviceExpiryDate", Rfc6031.at_pskc_deviceExpiryDate),
   ("rfc6031.id_pskc_moduleId", Rfc6031.id_pskc_moduleId),
   ("rfc6031.at_pskc_moduleId", Rfc6031.at_pskc_moduleId),
   ("rfc6031.id_pskc_deviceUserId", Rfc6031.id_pskc_deviceUserId),
   ("rfc6031.at_pskc_deviceUserId", Rfc6031.at_pskc_deviceUserId),
   ("rfc6031.id_pskc_keyId", Rfc6031.id_pskc_keyId),
   ("rfc6031.at_pskc_keyUserId", Rfc6031.at_pskc_keyUserId),
   ("rfc6031.id_pskc_algorithm", Rfc6031.id_pskc_algorithm),
   ("rfc6031.at_pskc_algorithm", Rfc6031.at_pskc_algorithm),
   ("rfc6031.id_pskc_issuer", Rfc6031.id_pskc_issuer),
   ("rfc6031.at_pskc_issuer", Rfc6031.at_pskc_issuer),
   ("rfc6031.id_pskc_keyProfileId", Rfc6031.id_pskc_keyProfileId),
   ("rfc6031.at_pskc_keyProfileId", Rfc6031.at_pskc_keyProfileId),
   ("rfc6031.id_pskc_keyReference", Rfc6031.id_pskc_keyReference),
   ("rfc6031.at_pskc_keyReference", Rfc6031.at_pskc_keyReference),
   ("rfc6031.id_pskc_friendlyName", Rfc6031.id_pskc_friendlyName),
   ("rfc6031.FriendlyName__0", Rfc6031.FriendlyName__0),
   ("rfc6031.FriendlyName", Rfc6031.FriendlyName),
   ("rfc6031.at_pskc_friendlyName", Rfc6031.at_pskc_friendlyName),
   ("rfc6031.id_pskc_algorithmParameters", Rfc6031.id_pskc_algorithmParameters),
   ("rfc6031.Encoding__0", Rfc6031.Encoding__0),
   ("rfc6031.Encoding__1", Rfc6031.Encoding__1),
   ("rfc6031.Encoding", Rfc6031.Encoding),
   ("rfc6031.ChallengeFormat__0", Rfc6031.ChallengeFormat__0),
   ("rfc6031.ChallengeFormat", Rfc6031.ChallengeFormat),
   ("rfc6031.ResponseFormat__0", Rfc6031.ResponseFormat__0),
   ("rfc6031.ResponseFormat", Rfc6031.ResponseFormat),
   ("rfc6031.PSKCAlgorithmParameters__0", Rfc6031.PSKCAlgorithmParameters__0),
   ("rfc6031.PSKCAlgorithmParameters", Rfc6031.PSKCAlgorithmParameters),
   ("rfc6031.at_pskc_algorithmParameters", Rfc6031.at_pskc_algorithmParameters),
   ("rfc6031.id_pskc_counter", Rfc6031.id_pskc_counter),
   ("rfc6031.at_pskc_counter__0", Rfc6031.at_pskc_counter__0),
   ("rfc6031.at_pskc_counter", Rfc6031.at_pskc_counter),
   ("rfc6031.id_pskc_time", Rfc6031.id_pskc_time),
   ("rfc6031.at_pskc_time", Rfc6031.at_pskc_time),
   ("rfc6031.id_pskc_timeInterval", Rfc6031.id_pskc_timeInterval),
   ("rfc6031.at_pskc_timeInterval__0", Rfc6031.at_pskc_timeInterval__0),
   ("rfc6031.at_pskc_timeInterval", Rfc6031.at_pskc_timeInterval),
   ("rfc6031.id_pskc_timeDrift", Rfc6031.id_pskc_timeDrift),
   ("rfc6031.at_pskc_timeDrift__0", Rfc6031.at_pskc_timeDrift__0),
   ("rfc6031.at_pskc_timeDrift", Rfc6031.at_pskc_timeDrift),
   ("rfc6031.id_pskc_valueMAC", Rfc6031.id_pskc_valueMAC),
   ("rfc6031.ValueMac__0", Rfc6031.ValueMac__0),
   ("rfc6031.ValueMac", Rfc6031.ValueMac),
   ("rfc6031.at_pskc_valueMAC", Rfc6031.at_pskc_valueMAC),
   ("rfc6031.id_pskc_keyUserId", Rfc6031.id_pskc_keyUserId),
   ("rfc6031.at_pskc_keyId", Rfc6031.at_pskc_keyId),
   ("rfc6031.id_pskc_keyStartDate", Rfc6031.id_pskc_keyStartDate),
   ("rfc6031.at_pskc_keyStartDate", Rfc6031.at_pskc_keyStartDate),
   ("rfc6031.id_pskc_keyExpiryDate", Rfc6031.id_pskc_keyExpiryDate),
   ("rfc6031.at_pskc_keyExpiryDate", Rfc6031.at_pskc_keyExpiryDate),
   ("rfc6031.id_pskc_numberOfTransactions", Rfc6031.id_pskc_numberOfTransactions),
   ("rfc6031.at_pskc_numberOfTransactions__0", Rfc6031.at_pskc_numberOfTransactions__0),
   ("rfc6031.at_pskc_numberOfTransactions", Rfc6031.at_pskc_numberOfTransactions),
   ("rfc6031.id_pskc_keyUsages", Rfc6031.id_pskc_keyUsages),
   ("rfc6031.PSKCKeyUsage__0", Rfc6031.PSKCKeyUsage__0),
   ("rfc6031.PSKCKeyUsage__1", Rfc6031.PSKCKeyUsage__1),
   ("rfc6031.PSKCKeyUsage", Rfc6031.PSKCKeyUsage),
   ("rfc6031.PSKCKeyUsages__0", Rfc6031.PSKCKeyUsages__0),
   ("rfc6031.PSKCKeyUsages", Rfc6031.PSKCKeyUsages),
   ("rfc6031.at_pskc_keyUsage", Rfc6031.at_pskc_keyUsage),
   ("rfc6031.id_pskc_pinPolicy", Rfc6031.id_pskc_pinPolicy),
   ("rfc6031.PINUsageMode__0", Rfc6031.PINUsageMode__0),
   ("rfc6031.PINUsageMode__1", Rfc6031.PINUsageMode__1),
   ("rfc6031.PINUsageMode", Rfc6031.PINUsageMode),
   ("rfc6031.PINPolicy__0", Rfc6031.PINPolicy__0),
   ("rfc6031.PINPolicy", Rfc6031.PINPolicy),
   ("rfc6031.at_pskc_pinPolicy", Rfc6031.at_pskc_pinPolicy),
   ("rfc6031.AttributeType", Rfc6031.AttributeType),
   ("rfc6031.AttributeValue", Rfc6031.AttributeValue),
   ("rfc6031.SKeyAttribute__0", Rfc6031.SKeyAttribute__0),
   ("rfc6031.SKeyAttribute", Rfc6031.SKeyAttribute),
   ("rfc6031.SKeyPkgAttribute__0", Rfc6031.SKeyPkgAttribute__0),
   ("rfc6031.SKeyPkgAttribute", Rfc6031.SKeyPkgAttribute),
   ("rfc6031.id_ct_KP_sKeyPackage", Rfc6031.id_ct_KP_sKeyPackage),
   ("rfc6031.KeyPkgVersion__0", Rfc6031.KeyPkgVersion__0),
   ("rfc6031.KeyPkgVersion", Rfc6031.KeyPkgVersion),
   ("rfc6031.OneSymmetricKey__0", Rfc6031.OneSymmetricKey__0),
   ("rfc6031.OneSymmetricKey__1", Rfc6031.OneSymmetricKey__1),
   ("rfc6031.OneSymmetricKey", Rfc6031.OneSymmetricKey),
   ("rfc6031.SymmetricKeys__0", Rfc6031.SymmetricKeys__0),
   ("rfc6031.SymmetricKeys__1", Rfc6031.SymmetricKeys__1),
   ("rfc6031.SymmetricKeys", Rfc6031.SymmetricKeys),
   ("rfc6031.SymmetricKeyPackage__0", Rfc6031.SymmetricKeyPackage__0),
   ("rfc6031.SymmetricKeyPackage", Rfc6031.SymmetricKeyPackage)]

def Rfc6031.fills : List (String × Py.Proto) :=
  []

def Rfc6032.steps : List (String × Py.Obj) :=
  [("rfc6032.id_aa_KP_contentDecryptKeyID", Rfc6032.id_aa_KP_contentDecryptKeyID),
   ("rfc6032.ContentDecryptKeyID", Rfc6032.ContentDecryptKeyID),
   ("rfc6032.id_ct_KP_encryptedKeyPkg", Rfc6032.id_ct_KP_encryptedKeyPkg),
   ("rfc6032.EncryptedKeyPackage__0", Rfc6032.EncryptedKeyPackage__0),
   ("rfc6032.EncryptedKeyPackage", Rfc6032.EncryptedKeyPackage)]

def Rfc6032.fills : List (String × Py.Proto) :=
  [("rfc6032.aa_content_decrypt_key_identifier__0", Rfc6032.aa_content_decrypt_key_identifier__0),
   ("rfc6032.aa_content_decrypt_key_identifier__1", Rfc6032.aa_content_decrypt_key_identifier__1),
   ("rfc6032.aa_content_decrypt_key_identifier", Rfc6032.aa_content_decrypt_key_identifier)]

def Rfc6120.steps : List (String × Py.Obj) :=
  [("rfc6120.id_pkix", Rfc6120.id_pkix),
   ("rfc6120.id_on", Rfc6120.id_on),
   ("rfc6120.id_on_xmppAddr", Rfc6120.id_on_xmppAddr),
   ("rfc6120.XmppAddr", Rfc6120.XmppAddr)]

def Rfc6120.fills : List (String × Py.Proto) :=
  []

def Rfc6170.steps : List (String × Py.Obj) :=
  [("rfc6170.id_logo_certImage", Rfc6170.id_logo_certImage)]

def Rfc6170.fills : List (String × Py.Proto) :=
  []

def Rfc6187.steps : List (String × Py.Obj) :=
  [("rfc6187.id_pkix", Rfc6187.id_pkix),
   ("rfc6187.id_kp", Rfc6187.id_kp),
   ("rfc6187.id_kp_secureShellClient", Rfc6187.id_kp_secureShellClient),
   ("rfc6187.id_kp_secureShellServer", Rfc6187.id_kp_secureShellServer)]

def Rfc6187.fills : List (String × Py.Proto) :=
  []

def Rfc6210.steps : List (String × Py.Obj) :=
  [("rfc6210.id_alg_MD5_XOR_EXPERIMENT", Rfc6210.id_alg_MD5_XOR_EXPERIMENT),
   ("rfc6210.MD5_XOR_EXPERIMENT__0", Rfc6210.MD5_XOR_EXPERIMENT__0),
   ("rfc6210.MD5_XOR_EXPERIMENT", Rfc6210.MD5_XOR_EXPERIMENT)]

def Rfc6210.fills : List (String × Py.Proto) :=
  [("rfc6210.mda_xor_md5_EXPERIMENT__0", Rfc6210.mda_xor_md5_EXPERIMENT__0),
   ("rfc6210.mda_xor_md5_EXPERIMENT__1", Rfc6210.mda_xor_md5_EXPERIMENT__1),
   ("rfc6210.mda_xor_md5_EXPERIMENT", Rfc6210.mda_xor_md5_EXPERIMENT)]

def Rfc6211.steps : List (String × Py.Obj) :=
  [("rfc6211.DigestAlgorithmIdentifier", Rfc6211.DigestAlgorithmIdentifier),
   ("rfc6211.MessageAuthenticationCodeAlgorithm", Rfc6211.MessageAuthenticationCodeAlgorithm),
   ("rfc6211.SignatureAlgorithmIdentifier", Rfc6211.SignatureAlgorithmIdentifier),
   ("rfc6211.id_aa_cmsAlgorithmProtect", Rfc6211.id_aa_cmsAlgorithmProtect),
   ("rfc6211.CMSAlgorithmProtection__0", Rfc6211.CMSAlgorithmProtection__0),
   ("rfc6211.CMSAlgorithmProtection__1", Rfc6211.CMSAlgorithmProtection__1),
   ("rfc6211.CMSAlgorithmProtection", Rfc6211.CMSAlgorithmProtection)]

def Rfc6211.fills : List (String × Py.Proto) :=
  [("rfc6211.aa_cmsAlgorithmProtection__0", Rfc6211.aa_cmsAlgorithmProtection__0),
   ("rfc6211.aa_cmsAlgorithmProtection__1", Rfc6211.aa_cmsAlgorithmProtection__1),
   ("rfc6211.aa_cmsAlgorithmProtection", Rfc6211.aa_cmsAlgorithmProtection)]

def Rfc6402.steps : List (String × Py.Obj) :=
  [("rfc6402.ChangeSubjectName__0", Rfc6402.ChangeSubjectName__0),
   ("rfc6402.ChangeSubjectName", Rfc6402.ChangeSubjectName),
   ("rfc6402.AttributeValue", Rfc6402.AttributeValue),
   ("rfc6402.CMCStatus__0", Rfc6402.CMCStatus__0),
   ("rfc6402.CMCStatus", Rfc6402.CMCStatus),
   ("rfc6402.PendInfo__0", Rfc6402.PendInfo__0),
   ("rfc6402.PendInfo", Rfc6402.PendInfo),
   ("rfc6402.bodyIdMax", Rfc6402.bodyIdMax),
   ("rfc6402.BodyPartID__0", Rfc6402.BodyPartID__0),
   ("rfc6402.BodyPartID", Rfc6402.BodyPartID),
   ("rfc6402.BodyPartPath__0", Rfc6402.BodyPartPath__0),
   ("rfc6402.BodyPartPath__1", Rfc6402.BodyPartPath__1),
   ("rfc6402.BodyPartPath", Rfc6402.BodyPartPath),
   ("rfc6402.BodyPartReference__0", Rfc6402.BodyPartReference__0),
   ("rfc6402.BodyPartReference", Rfc6402.BodyPartReference),
   ("rfc6402.CMCFailInfo__0", Rfc6402.CMCFailInfo__0),
   ("rfc6402.CMCFailInfo", Rfc6402.CMCFailInfo),
   ("rfc6402.CMCStatusInfoV2__0", Rfc6402.CMCStatusInfoV2__0),
   ("rfc6402.CMCStatusInfoV2", Rfc6402.CMCStatusInfoV2),
   ("rfc6402.GetCRL__0", Rfc6402.GetCRL__0),
   ("rfc6402.GetCRL", Rfc6402.GetCRL),
   ("rfc6402.id_pkix", Rfc6402.id_pkix),
   ("rfc6402.id_cmc", Rfc6402.id_cmc),
   ("rfc6402.id_cmc_batchResponses", Rfc6402.id_cmc_batchResponses),
   ("rfc6402.id_cmc_popLinkWitness", Rfc6402.id_cmc_popLinkWitness),
   ("rfc6402.PopLinkWitnessV2__0", Rfc6402.PopLinkWitnessV2__0),
   ("rfc6402.PopLinkWitnessV2", Rfc6402.PopLinkWitnessV2),
   ("rfc6402.id_cmc_popLinkWitnessV2", Rfc6402.id_cmc_popLinkWitnessV2),
   ("rfc6402.id_cmc_identityProofV2", Rfc6402.id_cmc_identityProofV2),
   ("rfc6402.id_cmc_revokeRequest", Rfc6402.id_cmc_revokeRequest),
   ("rfc6402.id_cmc_recipientNonce", Rfc6402.id_cmc_recipientNonce),
   ("rfc6402.ControlsProcessed__0", Rfc6402.ControlsProcessed__0),
   ("rfc6402.ControlsProcessed", Rfc6402.ControlsProcessed),
   ("rfc6402.CertificationRequest__0", Rfc6402.CertificationRequest__0),
   ("rfc6402.CertificationRequest", Rfc6402.CertificationRequest),
   ("rfc6402.TaggedCertificationRequest__0", Rfc6402.TaggedCertificationRequest__0),
   ("rfc6402.TaggedCertificationRequest", Rfc6402.TaggedCertificationRequest),
   ("rfc6402.TaggedRequest__0", Rfc6402.TaggedRequest__0),
   ("rfc6402.TaggedRequest", Rfc6402.TaggedRequest),
   ("rfc6402.id_cmc_popLinkRandom", Rfc6402.id_cmc_popLinkRandom),
   ("rfc6402.id_cmc_statusInfo", Rfc6402.id_cmc_statusInfo),
   ("rfc6402.id_cmc_trustedAnchors", Rfc6402.id_cmc_trustedAnchors),
   ("rfc6402.id_cmc_transactionId", Rfc6402.id_cmc_transactionId),
   ("rfc6402.id_cmc_encryptedPOP", Rfc6402.id_cmc_encryptedPOP),
   ("rfc6402.PublishTrustAnchors__0", Rfc6402.PublishTrustAnchors__0),
   ("rfc6402.PublishTrustAnchors", Rfc6402.PublishTrustAnchors),
   ("rfc6402.RevokeRequest__0", Rfc6402.RevokeRequest__0),
   ("rfc6402.RevokeRequest", Rfc6402.RevokeRequest),
   ("rfc6402.id_cmc_senderNonce", Rfc6402.id_cmc_senderNonce),
   ("rfc6402.id_cmc_authData", Rfc6402.id_cmc_authData),
   ("rfc6402.TaggedContentInfo__0", Rfc6402.TaggedContentInfo__0),
   ("rfc6402.TaggedContentInfo", Rfc6402.TaggedContentInfo),
   ("rfc6402.IdentifyProofV2__0", Rfc6402.IdentifyProofV2__0),
   ("rfc6402.IdentifyProofV2", Rfc6402.IdentifyProofV2),
   ("rfc6402.CMCPublicationInfo__0", Rfc6402.CMCPublicationInfo__0),
   ("rfc6402.CMCPublicationInfo", Rfc6402.CMCPublicationInfo),
   ("rfc6402.id_kp_cmcCA", Rfc6402.id_kp_cmcCA),
   ("rfc6402.id_cmc_confirmCertAcceptance", Rfc6402.id_cmc_confirmCertAcceptance),
   ("rfc6402.id_cmc_raIdentityWitness", Rfc6402.id_cmc_raIdentityWitness),
   ("rfc6402.id_ExtensionReq", Rfc6402.id_ExtensionReq),
   ("rfc6402.id_cct", Rfc6402.id_cct),
   ("rfc6402.id_cct_PKIData", Rfc6402.id_cct_PKIData),
   ("rfc6402.id_kp_cmcRA", Rfc6402.id_kp_cmcRA),
   ("rfc6402.CMCStatusInfo__0", Rfc6402.CMCStatusInfo__0),
   ("rfc6402.CMCStatusInfo", Rfc6402.CMCStatusInfo),
   ("rfc6402.DecryptedPOP__0", Rfc6402.DecryptedPOP__0),
   ("rfc6402.DecryptedPOP", Rfc6402.DecryptedPOP),
   ("rfc6402.id_cmc_addExtensions", Rfc6402.id_cmc_addExtensions),
   ("rfc6402.id_cmc_modCertTemplate", Rfc6402.id_cmc_modCertTemplate),
   ("rfc6402.TaggedAttribute__0", Rfc6402.TaggedAttribute__0),
   ("rfc6402.TaggedAttribute", Rfc6402.TaggedAttribute),
   ("rfc6402.OtherMsg__0", Rfc6402.OtherMsg__0),
   ("rfc6402.OtherMsg", Rfc6402.OtherMsg),
   ("rfc6402.PKIData__0", Rfc6402.PKIData__0),
   ("rfc6402.PKIData", Rfc6402.PKIData),
   ("rfc6402.BodyPartList__0", Rfc6402.BodyPartList__0),
   ("rfc6402.BodyPartList__1", Rfc6402.BodyPartList__1),
   ("rfc6402.BodyPartList", Rfc6402.BodyPartList),
   ("rfc6402.id_cmc_responseBody", Rfc6402.id_cmc_responseBody),
   ("rfc6402.AuthPublish", Rfc6402.AuthPublish),
   ("rfc6402.CMCUnsignedData__0", Rfc6402.CMCUnsignedData__0),
   ("rfc6402.CMCUnsignedData", Rfc6402.CMCUnsignedData),
   ("rfc6402.CMCCertId", Rfc6402.CMCCertId),
   ("rfc6402.PKIResponse__0", Rfc6402.PKIResponse__0),
   ("rfc6402.PKIResponse", Rfc6402.PKIResponse),
   ("rfc6402.ResponseBody", Rfc6402.ResponseBody),
   ("rfc6402.id_cmc_statusInfoV2", Rfc6402.id_cmc_statusInfoV2),
   ("rfc6402.id_cmc_lraPOPWitness", Rfc6402.id_cmc_lraPOPWitness),
   ("rfc6402.ModCertTemplate__0", Rfc6402.ModCertTemplate__0),
   ("rfc6402.ModCertTemplate", Rfc6402.ModCertTemplate),
   ("rfc6402.id_cmc_regInfo", Rfc6402.id_cmc_regInfo),
   ("rfc6402.id_cmc_identityProof", Rfc6402.id_cmc_identityProof),
   ("rfc6402.ExtensionReq__0", Rfc6402.ExtensionReq__0),
   ("rfc6402.ExtensionReq__1", Rfc6402.ExtensionReq__1),
   ("rfc6402.ExtensionReq", Rfc6402.ExtensionReq),
   ("rfc6402.id_kp_cmcArchive", Rfc6402.id_kp_cmcArchive),
   ("rfc6402.id_cmc_publishCert", Rfc6402.id_cmc_publishCert),
   ("rfc6402.id_cmc_dataReturn", Rfc6402.id_cmc_dataReturn),
   ("rfc6402.LraPopWitness__0", Rfc6402.LraPopWitness__0),
   ("rfc6402.LraPopWitness", Rfc6402.LraPopWitness),
   ("rfc6402.id_aa", Rfc6402.id_aa),
   ("rfc6402.id_aa_cmc_unsignedData", Rfc6402.id_aa_cmc_unsignedData),
   ("rfc6402.id_cmc_getCert", Rfc6402.id_cmc_getCert),
   ("rfc6402.id_cmc_batchRequests", Rfc6402.id_cmc_batchRequests),
   ("rfc6402.id_cmc_decryptedPOP", Rfc6402.id_cmc_decryptedPOP),
   ("rfc6402.id_cmc_responseInfo", Rfc6402.id_cmc_responseInfo),
   ("rfc6402.id_cmc_changeSubjectName", Rfc6402.id_cmc_changeSubjectName),
   ("rfc6402.GetCert__0", Rfc6402.GetCert__0),
   ("rfc6402.GetCert", Rfc6402.GetCert),
   ("rfc6402.id_cmc_identification", Rfc6402.id_cmc_identification),
   ("rfc6402.id_cmc_queryPending", Rfc6402.id_cmc_queryPending),
   ("rfc6402.AddExtensions__0", Rfc6402.AddExtensions__0),
   ("rfc6402.AddExtensions", Rfc6402.AddExtensions),
   ("rfc6402.EncryptedPOP__0", Rfc6402.EncryptedPOP__0),
   ("rfc6402.EncryptedPOP", Rfc6402.EncryptedPOP),
   ("rfc6402.id_cmc_getCRL", Rfc6402.id_cmc_getCRL),
   ("rfc6402.id_cct_PKIResponse", Rfc6402.id_cct_PKIResponse),
   ("rfc6402.id_cmc_controlProcessed", Rfc6402.id_cmc_controlProcessed),
   ("rfc6402.NoSignatureValue", Rfc6402.NoSignatureValue),
   ("rfc6402.id_ad_cmc", Rfc6402.id_ad_cmc),
   ("rfc6402.id_alg_noSignature", Rfc6402.id_alg_noSignature)]

def Rfc6402.fills : List (String × Py.Proto) :=
  []

def Rfc6482.steps : List (String × Py.Obj) :=
  [("rfc6482.id_ct_routeOriginAuthz", Rfc6482.id_ct_routeOriginAuthz),
   ("rfc6482.ASID", Rfc6482.ASID),
   ("rfc6482.IPAddress", Rfc6482.IPAddress),
   ("rfc6482.ROAIPAddress", Rfc6482.ROAIPAddress),
   ("rfc6482.ROAIPAddressFamily", Rfc6482.ROAIPAddressFamily),
   ("rfc6482.RouteOriginAttestation", Rfc6482.RouteOriginAttestation)]

def Rfc6482.fills : List (String × Py.Proto) :=
  []

def Rfc6486.steps : List (String × Py.Obj) :=
  [("rfc6486.id_smime", Rfc6486.id_smime),
   ("rfc6486.id_ct", Rfc6486.id_ct),
   ("rfc6486.id_ct_rpkiManifest", Rfc6486.id_ct_rpkiManifest),
   ("rfc6486.FileAndHash", Rfc6486.FileAndHash),
   ("rfc6486.Manifest", Rfc6486.Manifest)]

def Rfc6486.fills : List (String × Py.Proto) :=
  []

def Rfc6487.steps : List (String × Py.Obj) :=
  [("rfc6487.id_pkix", Rfc6487.id_pkix),
   ("rfc6487.id_ad", Rfc6487.id_ad),
   ("rfc6487.id_ad_rpkiManifest", Rfc6487.id_ad_rpkiManifest),
   ("rfc6487.id_ad_signedObject", Rfc6487.id_ad_signedObject)]

def Rfc6487.fills : List (String × Py.Proto) :=
  []

def Rfc6664.steps : List (String × Py.Obj) :=
  [("rfc6664.AlgorithmIdentifier", Rfc6664.AlgorithmIdentifier),
   ("rfc6664.dhpublicnumber", Rfc6664.dhpublicnumber),
   ("rfc6664.Dss_Parms", Rfc6664.Dss_Parms),
   ("rfc6664.id_dsa", Rfc6664.id_dsa),
   ("rfc6664.id_ecPublicKey", Rfc6664.id_ecPublicKey),
   ("rfc6664.rsaEncryption", Rfc6664.rsaEncryption),
   ("rfc6664.id_mgf1", Rfc6664.id_mgf1),
   ("rfc6664.id_RSAES_OAEP", Rfc6664.id_RSAES_OAEP),
   ("rfc6664.id_RSASSA_PSS", Rfc6664.id_RSASSA_PSS),
   ("rfc6664.ECParameters", Rfc6664.ECParameters),
   ("rfc6664.id_ecDH", Rfc6664.id_ecDH),
   ("rfc6664.id_ecMQV", Rfc6664.id_ecMQV),
   ("rfc6664.RSAKeySize", Rfc6664.RSAKeySize),
   ("rfc6664.RSAKeyCapabilities", Rfc6664.RSAKeyCapabilities),
   ("rfc6664.RsaSsa_Pss_sig_caps", Rfc6664.RsaSsa_Pss_sig_caps),
   ("rfc6664.DSAKeySize", Rfc6664.DSAKeySize),
   ("rfc6664.DSAKeyCapabilities", Rfc6664.DSAKeyCapabilities),
   ("rfc6664.EC_SMimeCaps", Rfc6664.EC_SMimeCaps)]

def Rfc6664.fills : List (String × Py.Proto) :=
  []

def Rfc6955.steps : List (String × Py.Obj) :=
  [("rfc6955.MessageDigest", Rfc6955.MessageDigest),
   ("rfc6955.IssuerAndSerialNumber", Rfc6955.IssuerAndSerialNumber),
   ("rfc6955.id_pkix", Rfc6955.id_pkix),
   ("rfc6955.Dss_Sig_Value", Rfc6955.Dss_Sig_Value),
   ("rfc6955.DomainParameters", Rfc6955.DomainParameters),
   ("rfc6955.DhSigStatic", Rfc6955.DhSigStatic),
   ("rfc6955.id_dh_sig_hmac_sha1", Rfc6955.id_dh_sig_hmac_sha1),
   ("rfc6955.id_dhPop_static_sha1_hmac_sha1", Rfc6955.id_dhPop_static_sha1_hmac_sha1),
   ("rfc6955.id_alg_dh_pop", Rfc6955.id_alg_dh_pop),
   ("rfc6955.id_alg_dhPop_sha1", Rfc6955.id_alg_dhPop_sha1),
   ("rfc6955.id_alg_dhPop_sha224", Rfc6955.id_alg_dhPop_sha224),
   ("rfc6955.id_alg_dhPop_sha256", Rfc6955.id_alg_dhPop_sha256),
   ("rfc6955.id_alg_dhPop_sha384", Rfc6955.id_alg_dhPop_sha384),
   ("rfc6955.id_alg_dhPop_sha512", Rfc6955.id_alg_dhPop_sha512),
   ("rfc6955.id_alg_dhPop_static_sha224_hmac_sha224", Rfc6955.id_alg_dhPop_static_sha224_hmac_sha224),
   ("rfc6955.id_alg_dhPop_static_sha256_hmac_sha256", Rfc6955.id_alg_dhPop_static_sha256_hmac_sha256),
   ("rfc6955.id_alg_dhPop_static_sha384_hmac_sha384", Rfc6955.id_alg_dhPop_static_sha384_hmac_sha384),
   ("rfc6955.id_alg_dhPop_static_sha512_hmac_sha512", Rfc6955.id_alg_dhPop_static_sha512_hmac_sha512),
   ("rfc6955.id_alg_ecdhPop_static_sha224_hmac_sha224", Rfc6955.id_alg_ecdhPop_static_sha224_hmac_sha224),
   ("rfc6955.id_alg_ecdhPop_static_sha256_hmac_sha256", Rfc6955.id_alg_ecdhPop_static_sha256_hmac_sha256),
   ("rfc6955.id_alg_ecdhPop_static_sha384_hmac_sha384", Rfc6955.id_alg_ecdhPop_static_sha384_hmac_sha384),
   ("rfc6955.id_alg_ecdhPop_static_sha512_hmac_sha512", Rfc6955.id_alg_ecdhPop_static_sha512_hmac_sha512)]

def Rfc6955.fills : List (String × Py.Proto) :=
  []

def Rfc6960.steps : List (String × Py.Obj) :=
  [("rfc6960.AlgorithmIdentifier", Rfc6960.AlgorithmIdentifier),
   ("rfc6960.AuthorityInfoAccessSyntax", Rfc6960.AuthorityInfoAccessSyntax),
   ("rfc6960.Certificate", Rfc6960.Certificate),
   ("rfc6960.CertificateSerialNumber", Rfc6960.CertificateSerialNumber),
   ("rfc6960.CRLReason", Rfc6960.CRLReason),
   ("rfc6960.Extensions", Rfc6960.Extensions),
   ("rfc6960.GeneralName", Rfc6960.GeneralName),
   ("rfc6960.Name", Rfc6960.Name),
   ("rfc6960.id_kp", Rfc6960.id_kp),
   ("rfc6960.id_ad_ocsp", Rfc6960.id_ad_ocsp),
   ("rfc6960.AcceptableResponses", Rfc6960.AcceptableResponses),
   ("rfc6960.ArchiveCutoff", Rfc6960.ArchiveCutoff),
   ("rfc6960.CertStatus", Rfc6960.CertStatus),
   ("rfc6960.KeyHash", Rfc6960.KeyHash),
   ("rfc6960.OCSPResponse", Rfc6960.OCSPResponse),
   ("rfc6960.OCSPResponseStatus", Rfc6960.OCSPResponseStatus),
   ("rfc6960.ResponseBytes", Rfc6960.ResponseBytes),
   ("rfc6960.RevokedInfo", Rfc6960.RevokedInfo),
   ("rfc6960.UnknownInfo", Rfc6960.UnknownInfo),
   ("rfc6960.Version", Rfc6960.Version),
   ("rfc6960.id_kp_OCSPSigning", Rfc6960.id_kp_OCSPSigning),
   ("rfc6960.id_pkix_ocsp", Rfc6960.id_pkix_ocsp),
   ("rfc6960.id_pkix_ocsp_archive_cutoff", Rfc6960.id_pkix_ocsp_archive_cutoff),
   ("rfc6960.id_pkix_ocsp_basic", Rfc6960.id_pkix_ocsp_basic),
   ("rfc6960.id_pkix_ocsp_crl", Rfc6960.id_pkix_ocsp_crl),
   ("rfc6960.id_pkix_ocsp_nocheck", Rfc6960.id_pkix_ocsp_nocheck),
   ("rfc6960.id_pkix_ocsp_nonce", Rfc6960.id_pkix_ocsp_nonce),
   ("rfc6960.id_pkix_ocsp_response", Rfc6960.id_pkix_ocsp_response),
   ("rfc6960.id_pkix_ocsp_service_locator", Rfc6960.id_pkix_ocsp_service_locator),
   ("rfc6960.id_pkix_ocsp_pref_sig_algs", Rfc6960.id_pkix_ocsp_pref_sig_algs),
   ("rfc6960.id_pkix_ocsp_extended_revoke", Rfc6960.id_pkix_ocsp_extended_revoke),
   ("rfc6960.CertID", Rfc6960.CertID),
   ("rfc6960.SingleResponse", Rfc6960.SingleResponse),
   ("rfc6960.ResponderID", Rfc6960.ResponderID),
   ("rfc6960.ResponseData", Rfc6960.ResponseData),
   ("rfc6960.BasicOCSPResponse", Rfc6960.BasicOCSPResponse),
   ("rfc6960.Request", Rfc6960.Request),
   ("rfc6960.Signature", Rfc6960.Signature),
   ("rfc6960.TBSRequest", Rfc6960.TBSRequest),
   ("rfc6960.OCSPRequest", Rfc6960.OCSPRequest),
   ("rfc6960.ServiceLocator", Rfc6960.ServiceLocator),
   ("rfc6960.CrlID", Rfc6960.CrlID),
   ("rfc6960.PreferredSignatureAlgorithm", Rfc6960.PreferredSignatureAlgorithm),
   ("rfc6960.PreferredSignatureAlgorithms", Rfc6960.PreferredSignatureAlgorithms)]

def Rfc6960.fills : List (String × Py.Proto) :=
  []

def Rfc7030.steps : List (String × Py.Obj) :=
  [("rfc7030.Attribute", Rfc7030.Attribute),
   ("rfc7030.id_aa_asymmDecryptKeyID", Rfc7030.id_aa_asymmDecryptKeyID),
   ("rfc7030.AsymmetricDecryptKeyIdentifier", Rfc7030.AsymmetricDecryptKeyIdentifier),
   ("rfc7030.AttrOrOID__0", Rfc7030.AttrOrOID__0),
   ("rfc7030.AttrOrOID", Rfc7030.AttrOrOID),
   ("rfc7030.CsrAttrs__0", Rfc7030.CsrAttrs__0),
   ("rfc7030.CsrAttrs__1", Rfc7030.CsrAttrs__1),
   ("rfc7030.CsrAttrs", Rfc7030.CsrAttrs)]

def Rfc7030.fills : List (String × Py.Proto) :=
  [("rfc7030.aa_asymmDecryptKeyID__0", Rfc7030.aa_asymmDecryptKeyID__0),
   ("rfc7030.aa_asymmDecryptKeyID__1", Rfc7030.aa_asymmDecryptKeyID__1),
   ("rfc7030.aa_asymmDecryptKeyID", Rfc7030.aa_asymmDecryptKeyID)]

def Rfc7191.steps : List (String × Py.Obj) :=
  [("rfc7191.DistinguishedName", Rfc7191.DistinguishedName),
   ("rfc7191.AttributeValue", Rfc7191.AttributeValue),
   ("rfc7191.AttributeValues__0", Rfc7191.AttributeValues__0),
   ("rfc7191.AttributeValues__1", Rfc7191.AttributeValues__1),
   ("rfc7191.AttributeValues", Rfc7191.AttributeValues),
   ("rfc7191.SingleAttribute__0", Rfc7191.SingleAttribute__0),
   ("rfc7191.SingleAttribute", Rfc7191.SingleAttribute),
   ("rfc7191.SIREntityNameType", Rfc7191.SIREntityNameType),
   ("rfc7191.SIREntityNameValue", Rfc7191.SIREntityNameValue),
   ("rfc7191.SIREntityName__0", Rfc7191.SIREntityName__0),
   ("rfc7191.SIREntityName", Rfc7191.SIREntityName),
   ("rfc7191.SIREntityNames__0", Rfc7191.SIREntityNames__0),
   ("rfc7191.SIREntityNames__1", Rfc7191.SIREntityNames__1),
   ("rfc7191.SIREntityNames", Rfc7191.SIREntityNames),
   ("rfc7191.id_dn", Rfc7191.id_dn),
   ("rfc7191.siren_dn", Rfc7191.siren_dn),
   ("rfc7191.EnumeratedErrorCode__0", Rfc7191.EnumeratedErrorCode__0),
   ("rfc7191.EnumeratedErrorCode", Rfc7191.EnumeratedErrorCode),
   ("rfc7191.ErrorCodeChoice__0", Rfc7191.ErrorCodeChoice__0),
   ("rfc7191.ErrorCodeChoice", Rfc7191.ErrorCodeChoice),
   ("rfc7191.KeyPkgID", Rfc7191.KeyPkgID),
   ("rfc7191.KeyPkgIdentifier__0", Rfc7191.KeyPkgIdentifier__0),
   ("rfc7191.KeyPkgIdentifier", Rfc7191.KeyPkgIdentifier),
   ("rfc7191.KeyPkgVersion__0", Rfc7191.KeyPkgVersion__0),
   ("rfc7191.KeyPkgVersion__1", Rfc7191.KeyPkgVersion__1),
   ("rfc7191.KeyPkgVersion", Rfc7191.KeyPkgVersion),
   ("rfc7191.id_ct_KP_keyPackageError", Rfc7191.id_ct_KP_keyPackageError),
   ("rfc7191.KeyPackageError__0", Rfc7191.KeyPackageError__0),
   ("rfc7191.KeyPackageError", Rfc7191.KeyPackageError),
   ("rfc7191.id_ct_KP_keyPackageReceipt", Rfc7191.id_ct_KP_keyPackageReceipt),
   ("rfc7191.KeyPackageReceipt__0", Rfc7191.KeyPackageReceipt__0),
   ("rfc7191.KeyPackageReceipt", Rfc7191.KeyPackageReceipt),
   ("rfc7191.KeyPkgReceiptReq__0", Rfc7191.KeyPkgReceiptReq__0),
   ("rfc7191.KeyPkgReceiptReq", Rfc7191.KeyPkgReceiptReq),
   ("rfc7191.id_aa_KP_keyPkgIdAndReceiptReq", Rfc7191.id_aa_KP_keyPkgIdAndReceiptReq),
   ("rfc7191.KeyPkgIdentifierAndReceiptReq__0", Rfc7191.KeyPkgIdentifierAndReceiptReq__0),
   ("rfc7191.KeyPkgIdentifierAndReceiptReq", Rfc7191.KeyPkgIdentifierAndReceiptReq)]

def Rfc7191.fills : List (String × Py.Proto) :=
  []

def Rfc7229.steps : List (String × Py.Obj) :=
  [("rfc7229.id_pkix", Rfc7229.id_pkix),
   ("rfc7229.id_TEST", Rfc7229.id_TEST),
   ("rfc7229.id_TEST_certPolicyOne", Rfc7229.id_TEST_certPolicyOne),
   ("rfc7229.id_TEST_certPolicyTwo", Rfc7229.id_TEST_certPolicyTwo),
   ("rfc7229.id_TEST_certPolicyThree", Rfc7229.id_TEST_certPolicyThree),
   ("rfc7229.id_TEST_certPolicyFour", Rfc7229.id_TEST_certPolicyFour),
   ("rfc7229.id_TEST_certPolicyFive", Rfc7229.id_TEST_certPolicyFive),
   ("rfc7229.id_TEST_certPolicySix", Rfc7229.id_TEST_certPolicySix),
   ("rfc7229.id_TEST_certPolicySeven", Rfc7229.id_TEST_certPolicySeven),
   ("rfc7229.id_TEST_certPolicyEight", Rfc7229.id_TEST_certPolicyEight)]

def Rfc7229.fills : List (String × Py.Proto) :=
  []

def Rfc7292.steps : List (String × Py.Obj) :=
  [("rfc7292.DigestInfo", Rfc7292.DigestInfo),
   ("rfc7292.ContentInfo", Rfc7292.ContentInfo),
   ("rfc7292.PKCS12Attribute", Rfc7292.PKCS12Attribute),
   ("rfc7292.EncryptedPrivateKeyInfo", Rfc7292.EncryptedPrivateKeyInfo),
   ("rfc7292.PrivateKeyInfo", Rfc7292.PrivateKeyInfo),
   ("rfc7292.AttributeType", Rfc7292.AttributeType),
   ("rfc7292.AttributeValue", Rfc7292.AttributeValue),
   ("rfc7292.AttributeValues__0", Rfc7292.AttributeValues__0),
   ("rfc7292.AttributeValues", Rfc7292.AttributeValues),
   ("rfc7292.CMSSingleAttribute__0", Rfc7292.CMSSingleAttribute__0),
   ("rfc7292.CMSSingleAttribute", Rfc7292.CMSSingleAttribute),
   ("rfc7292.rsadsi", Rfc7292.rsadsi),
   ("rfc7292.pkcs", Rfc7292.pkcs),
   ("rfc7292.pkcs_9", Rfc7292.pkcs_9),
   ("rfc7292.certTypes", Rfc7292.certTypes),
   ("rfc7292.crlTypes", Rfc7292.crlTypes),
   ("rfc7292.pkcs_12", Rfc7292.pkcs_12),
   ("rfc7292.pkcs_12PbeIds", Rfc7292.pkcs_12PbeIds),
   ("rfc7292.pbeWithSHAAnd128BitRC4", Rfc7292.pbeWithSHAAnd128BitRC4),
   ("rfc7292.pbeWithSHAAnd40BitRC4", Rfc7292.pbeWithSHAAnd40BitRC4),
   ("rfc7292.pbeWithSHAAnd3_KeyTripleDES_CBC", Rfc7292.pbeWithSHAAnd3_KeyTripleDES_CBC),
   ("rfc7292.pbeWithSHAAnd2_KeyTripleDES_CBC", Rfc7292.pbeWithSHAAnd2_KeyTripleDES_CBC),
   ("rfc7292.pbeWithSHAAnd128BitRC2_CBC", Rfc7292.pbeWithSHAAnd128BitRC2_CBC),
   ("rfc7292.pbeWithSHAAnd40BitRC2_CBC", Rfc7292.pbeWithSHAAnd40BitRC2_CBC),
   ("rfc7292.Pkcs_12PbeParams__0", Rfc7292.Pkcs_12PbeParams__0),
   ("rfc7292.Pkcs_12PbeParams", Rfc7292.Pkcs_12PbeParams),
   ("rfc7292.bagtypes", Rfc7292.bagtypes),
   ("rfc7292.BAG_TYPE__0", Rfc7292.BAG_TYPE__0),
   ("rfc7292.BAG_TYPE", Rfc7292.BAG_TYPE),
   ("rfc7292.id_keyBag", Rfc7292.id_keyBag),
   ("rfc7292.KeyBag", Rfc7292.KeyBag),
   ("rfc7292.id_pkcs8ShroudedKeyBag", Rfc7292.id_pkcs8ShroudedKeyBag),
   ("rfc7292.PKCS8ShroudedKeyBag", Rfc7292.PKCS8ShroudedKeyBag),
   ("rfc7292.id_certBag", Rfc7292.id_certBag),
   ("rfc7292.CertBag__0", Rfc7292.CertBag__0),
   ("rfc7292.CertBag", Rfc7292.CertBag),
   ("rfc7292.id_CRLBag", Rfc7292.id_CRLBag),
   ("rfc7292.CRLBag__0", Rfc7292.CRLBag__0),
   ("rfc7292.CRLBag", Rfc7292.CRLBag),
   ("rfc7292.id_secretBag", Rfc7292.id_secretBag),
   ("rfc7292.SecretBag__0", Rfc7292.SecretBag__0),
   ("rfc7292.SecretBag", Rfc7292.SecretBag),
   ("rfc7292.id_safeContentsBag", Rfc7292.id_safeContentsBag),
   ("rfc7292.SafeBag__0", Rfc7292.SafeBag__0),
   ("rfc7292.SafeBag", Rfc7292.SafeBag),
   ("rfc7292.SafeContents__0", Rfc7292.SafeContents__0),
   ("rfc7292.SafeContents", Rfc7292.SafeContents),
   ("rfc7292.AuthenticatedSafe__0", Rfc7292.AuthenticatedSafe__0),
   ("rfc7292.AuthenticatedSafe", Rfc7292.AuthenticatedSafe),
   ("rfc7292.MacData__0", Rfc7292.MacData__0),
   ("rfc7292.MacData", Rfc7292.MacData),
   ("rfc7292.PFX__0", Rfc7292.PFX__0),
   ("rfc7292.PFX", Rfc7292.PFX),
   ("rfc7292.pkcs_9_at_localKeyId", Rfc7292.pkcs_9_at_localKeyId),
   ("rfc7292.pkcs_9_ub_pkcs9String", Rfc7292.pkcs_9_ub_pkcs9String),
   ("rfc7292.pkcs_9_ub_friendlyName", Rfc7292.pkcs_9_ub_friendlyName),
   ("rfc7292.pkcs_9_at_friendlyName", Rfc7292.pkcs_9_at_friendlyName),
   ("rfc7292.FriendlyName__0", Rfc7292.FriendlyName__0),
   ("rfc7292.FriendlyName", Rfc7292.FriendlyName)]

def Rfc7292.fills : List (String × Py.Proto) :=
  [("rfc7292.x509Certificate__0", Rfc7292.x509Certificate__0),
   ("rfc7292.x509Certificate__1", Rfc7292.x509Certificate__1),
   ("rfc7292.x509Certificate", Rfc7292.x509Certificate),
   ("rfc7292.sdsiCertificate__0", Rfc7292.sdsiCertificate__0),
   ("rfc7292.sdsiCertificate__1", Rfc7292.sdsiCertificate__1),
   ("rfc7292.sdsiCertificate", Rfc7292.sdsiCertificate),
   ("rfc7292.x509CRL__0", Rfc7292.x509CRL__0),
   ("rfc7292.x509CRL__1", Rfc7292.x509CRL__1),
   ("rfc7292.x509CRL", Rfc7292.x509CRL),
   ("rfc7292.localKeyId__0", Rfc7292.localKeyId__0),
   ("rfc7292.localKeyId__1", Rfc7292.localKeyId__1),
   ("rfc7292.localKeyId", Rfc7292.localKeyId),
   ("rfc7292.friendlyName__0", Rfc7292.friendlyName__0),
   ("rfc7292.friendlyName__1", Rfc7292.friendlyName__1),
   ("rfc7292.friendlyName", Rfc7292.friendlyName)]

def Rfc7296.steps : List (String × Py.Obj) :=
  [("rfc7296.CertificateOrCRL__0", Rfc7296.CertificateOrCRL__0),
   ("rfc7296.CertificateOrCRL", Rfc7296.CertificateOrCRL),
   ("rfc7296.CertificateBundle__0", Rfc7296.CertificateBundle__0),
   ("rfc7296.CertificateBundle", Rfc7296.CertificateBundle)]

def Rfc7296.fills : List (String × Py.Proto) :=
  []

def Rfc7508.steps : List (String × Py.Obj) :=
  [("rfc7508.Algorithm", Rfc7508.Algorithm),
   ("rfc7508.HeaderFieldStatus", Rfc7508.HeaderFieldStatus),
   ("rfc7508.HeaderFieldName", Rfc7508.HeaderFieldName),
   ("rfc7508.HeaderFieldValue", Rfc7508.HeaderFieldValue),
   ("rfc7508.HeaderField", Rfc7508.HeaderField),
   ("rfc7508.HeaderFields", Rfc7508.HeaderFields),
   ("rfc7508.SecureHeaderFields", Rfc7508.SecureHeaderFields),
   ("rfc7508.id_aa", Rfc7508.id_aa),
   ("rfc7508.id_aa_secureHeaderFieldsIdentifier", Rfc7508.id_aa_secureHeaderFieldsIdentifier)]

def Rfc7508.fills : List (String × Py.Proto) :=
  []

def Rfc7585.steps : List (String × Py.Obj) :=
  [("rfc7585.id_pkix", Rfc7585.id_pkix),
   ("rfc7585.id_on", Rfc7585.id_on),
   ("rfc7585.id_on_naiRealm", Rfc7585.id_on_naiRealm),
   ("rfc7585.ub_naiRealm_length", Rfc7585.ub_naiRealm_length),
   ("rfc7585.NAIRealm", Rfc7585.NAIRealm)]

def Rfc7585.fills : List (String × Py.Proto) :=
  [("rfc7585.naiRealm__0", Rfc7585.naiRealm__0),
   ("rfc7585.naiRealm__1", Rfc7585.naiRealm__1),
   ("rfc7585.naiRealm", Rfc7585.naiRealm)]

def Rfc7633.steps : List (String × Py.Obj) :=
  [("rfc7633.id_pe", Rfc7633.id_pe),
   ("rfc7633.id_pe_tlsfeature", Rfc7633.id_pe_tlsfeature),
   ("rfc7633.Features", Rfc7633.Features)]

def Rfc7633.fills : List (String × Py.Proto) :=
  []

def Rfc7773.steps : List (String × Py.Obj) :=
  [("rfc7773.e_legnamnden", Rfc7773.e_legnamnden),
   ("rfc7773.id_eleg_ce", Rfc7773.id_eleg_ce),
   ("rfc7773.id_ce_authContext", Rfc7773.id_ce_authContext),
   ("rfc7773.AuthenticationContext", Rfc7773.AuthenticationContext),
   ("rfc7773.AuthenticationContexts", Rfc7773.AuthenticationContexts)]

def Rfc7773.fills : List (String × Py.Proto) :=
  []

def Rfc7894.steps : List (String × Py.Obj) :=
  [("rfc7894.Attribute", Rfc7894.Attribute),
   ("rfc7894.DirectoryString__0", Rfc7894.DirectoryString__0),
   ("rfc7894.DirectoryString", Rfc7894.DirectoryString),
   ("rfc7894.id_aa_otpChallenge", Rfc7894.id_aa_otpChallenge),
   ("rfc7894.ub_aa_otpChallenge", Rfc7894.ub_aa_otpChallenge),
   ("rfc7894.id_aa_revocationChallenge", Rfc7894.id_aa_revocationChallenge),
   ("rfc7894.ub_aa_revocationChallenge", Rfc7894.ub_aa_revocationChallenge),
   ("rfc7894.id_aa_estIdentityLinking", Rfc7894.id_aa_estIdentityLinking),
   ("rfc7894.ub_aa_est_identity_linking", Rfc7894.ub_aa_est_identity_linking)]

def Rfc7894.fills : List (String × Py.Proto) :=
  [("rfc7894.otpChallenge__0", Rfc7894.otpChallenge__0),
   ("rfc7894.otpChallenge__1", Rfc7894.otpChallenge__1),
   ("rfc7894.otpChallenge", Rfc7894.otpChallenge),
   ("rfc7894.revocationChallenge__0", Rfc7894.revocationChallenge__0),
   ("rfc7894.revocationChallenge__1", Rfc7894.revocationChallenge__1),
   ("rfc7894.revocationChallenge", Rfc7894.revocationChallenge),
   ("rfc7894.estIdentityLinking__0", Rfc7894.estIdentityLinking__0),
   ("rfc7894.estIdentityLinking__1", Rfc7894.estIdentityLinking__1),
   ("rfc7894.estIdentityLinking", Rfc7894.estIdentityLinking)]

def Rfc7906.steps : List (String × Py.Obj) :=
  [("rfc7906.id_aa_contentHint", Rfc7906.id_aa_contentHint),
   ("rfc7906.ContentHints", Rfc7906.ContentHints),
   ("rfc7906.id_aa_securityLabel", Rfc7906.id_aa_securityLabel),
   ("rfc7906.SecurityPolicyIdentifier", Rfc7906.SecurityPolicyIdentifier),
   ("rfc7906.SecurityClassification", Rfc7906.SecurityClassification),
   ("rfc7906.ESSPrivacyMark", Rfc7906.ESSPrivacyMark),
   ("rfc7906.SecurityCategories", Rfc7906.SecurityCategories),
   ("rfc7906.ESSSecurityLabel", Rfc7906.ESSSecurityLabel),
   ("rfc7906.id_aa_communityIdentifiers", Rfc7906.id_aa_communityIdentifiers),
   ("rfc7906.CommunityIdentifier", Rfc7906.CommunityIdentifier),
   ("rfc7906.CommunityIdentifiers", Rfc7906.CommunityIdentifiers),
   ("rfc7906.AlgorithmIdentifier", Rfc7906.AlgorithmIdentifier),
   ("rfc7906.Name", Rfc7906.Name),
   ("rfc7906.Certificate", Rfc7906.Certificate),
   ("rfc7906.GeneralNames", Rfc7906.GeneralNames),
   ("rfc7906.GeneralName", Rfc7906.GeneralName),
   ("rfc7906.SubjectInfoAccessSyntax", Rfc7906.SubjectInfoAccessSyntax),
   ("rfc7906.id_pkix", Rfc7906.id_pkix),
   ("rfc7906.id_pe", Rfc7906.id_pe),
   ("rfc7906.id_pe_subjectInfoAccess", Rfc7906.id_pe_subjectInfoAccess),
   ("rfc7906.CMSContentConstraints", Rfc7906.CMSContentConstraints),
   ("rfc7906.BinaryTime", Rfc7906.BinaryTime),
   ("rfc7906.id_aa_binarySigningTime", Rfc7906.id_aa_binarySigningTime),
   ("rfc7906.BinarySigningTime", Rfc7906.BinarySigningTime),
   ("rfc7906.Attribute", Rfc7906.Attribute),
   ("rfc7906.CertificateSet", Rfc7906.CertificateSet),
   ("rfc7906.CertificateChoices", Rfc7906.CertificateChoices),
   ("rfc7906.id_contentType", Rfc7906.id_contentType),
   ("rfc7906.ContentType", Rfc7906.ContentType),
   ("rfc7906.id_messageDigest", Rfc7906.id_messageDigest),
   ("rfc7906.MessageDigest", Rfc7906.MessageDigest),
   ("rfc7906.SIREntityName", Rfc7906.SIREntityName),
   ("rfc7906.id_aa_KP_keyPkgIdAndReceiptReq", Rfc7906.id_aa_KP_keyPkgIdAndReceiptReq),
   ("rfc7906.KeyPkgIdentifierAndReceiptReq", Rfc7906.KeyPkgIdentifierAndReceiptReq),
   ("rfc7906.id_aa_KP_keyProvinceV2", Rfc7906.id_aa_KP_keyProvinceV2),
   ("rfc7906.KeyProvinceV2", Rfc7906.KeyProvinceV2),
   ("rfc7906.id_aa_KP_manifest", Rfc7906.id_aa_KP_manifest),
   ("rfc7906.ShortTitle", Rfc7906.ShortTitle),
   ("rfc7906.Manifest__0", Rfc7906.Manifest__0),
   ("rfc7906.Manifest__1", Rfc7906.Manifest__1),
   ("rfc7906.Manifest", Rfc7906.Manifest),
   ("rfc7906.id_kma_keyAlgorithm", Rfc7906.id_kma_keyAlgorithm),
   ("rfc7906.KeyAlgorithm__0", Rfc7906.KeyAlgorithm__0),
   ("rfc7906.KeyAlgorithm", Rfc7906.KeyAlgorithm),
   ("rfc7906.id_at_userCertificate", Rfc7906.id_at_userCertificate),
   ("rfc7906.id_kma_keyPkgReceiversV2", Rfc7906.id_kma_keyPkgReceiversV2),
   ("rfc7906.KeyPkgReceiver__0", Rfc7906.KeyPkgReceiver__0),
   ("rfc7906.KeyPkgReceiver", Rfc7906.KeyPkgReceiver),
   ("rfc7906.KeyPkgReceiversV2__0", Rfc7906.KeyPkgReceiversV2__0),
   ("rfc7906.KeyPkgReceiversV2__1", Rfc7906.KeyPkgReceiversV2__1),
   ("rfc7906.KeyPkgReceiversV2", Rfc7906.KeyPkgReceiversV2),
   ("rfc7906.id_kma_TSECNomenclature", Rfc7906.id_kma_TSECNomenclature),
   ("rfc7906.CharEdition", Rfc7906.CharEdition),
   ("rfc7906.CharEditionRange__0", Rfc7906.CharEditionRange__0),
   ("rfc7906.CharEditionRange", Rfc7906.CharEditionRange),
   ("rfc7906.NumEdition__0", Rfc7906.NumEdition__0),
   ("rfc7906.NumEdition", Rfc7906.NumEdition),
   ("rfc7906.NumEditionRange__0", Rfc7906.NumEditionRange__0),
   ("rfc7906.NumEditionRange", Rfc7906.NumEditionRange),
   ("rfc7906.EditionID__0", Rfc7906.EditionID__0),
   ("rfc7906.EditionID", Rfc7906.EditionID),
   ("rfc7906.Register__0", Rfc7906.Register__0),
   ("rfc7906.Register", Rfc7906.Register),
   ("rfc7906.RegisterRange__0", Rfc7906.RegisterRange__0),
   ("rfc7906.RegisterRange", Rfc7906.RegisterRange),
   ("rfc7906.RegisterID__0", Rfc7906.RegisterID__0),
   ("rfc7906.RegisterID", Rfc7906.RegisterID),
   ("rfc7906.SegmentNumber__0", Rfc7906.SegmentNumber__0),
   ("rfc7906.SegmentNumber", Rfc7906.SegmentNumber),
   ("rfc7906.SegmentRange__0", Rfc7906.SegmentRange__0),
   ("rfc7906.SegmentRange", Rfc7906.SegmentRange),
   ("rfc7906.SegmentID__0", Rfc7906.SegmentID__0),
   ("rfc7906.SegmentID", Rfc7906.SegmentID),
   ("rfc7906.TSECNomenclature__0", Rfc7906.TSECNomenclature__0),
   ("rfc7906.TSECNomenclature", Rfc7906.TSECNomenclature),
   ("rfc7906.id_kma_keyPurpose", Rfc7906.id_kma_keyPurpose),
   ("rfc7906.KeyPurpose__0", Rfc7906.KeyPurpose__0),
   ("rfc7906.KeyPurpose", Rfc7906.KeyPurpose),
   ("rfc7906.id_kma_keyUse", Rfc7906.id_kma_keyUse),
   ("rfc7906.KeyUse__0", Rfc7906.KeyUse__0),
   ("rfc7906.KeyUse", Rfc7906.KeyUse),
   ("rfc7906.aa_keyUse", Rfc7906.aa_keyUse),
   ("rfc7906.id_kma_transportKey", Rfc7906.id_kma_transportKey),
   ("rfc7906.TransOp__0", Rfc7906.TransOp__0),
   ("rfc7906.TransOp", Rfc7906.TransOp),
   ("rfc7906.id_kma_keyDistPeriod", Rfc7906.id_kma_keyDistPeriod),
   ("rfc7906.KeyDistPeriod__0", Rfc7906.KeyDistPeriod__0),
   ("rfc7906.KeyDistPeriod", Rfc7906.KeyDistPeriod),
   ("rfc7906.id_kma_keyValidityPeriod", Rfc7906.id_kma_keyValidityPeriod),
   ("rfc7906.KeyValidityPeriod__0", Rfc7906.KeyValidityPeriod__0),
   ("rfc7906.KeyValidityPeriod", Rfc7906.KeyValidityPeriod),
   ("rfc7906.id_kma_keyDuration", Rfc7906.id_kma_keyDuration),
   ("rfc7906.ub_KeyDuration_months", Rfc7906.ub_KeyDuration_months),
   ("rfc7906.ub_KeyDuration_hours", Rfc7906.ub_KeyDuration_hours),
   ("rfc7906.ub_KeyDuration_days", Rfc7906.ub_KeyDuration_days),
   ("rfc7906.ub_KeyDuration_weeks", Rfc7906.ub_KeyDuration_weeks),
   ("rfc7906.ub_KeyDuration_years", Rfc7906.ub_KeyDuration_years),
   ("rfc7906.KeyDuration__0", Rfc7906.KeyDuration__0),
   ("rfc7906.KeyDuration", Rfc7906.KeyDuration),
   ("rfc7906.id_aa_KP_classification", Rfc7906.id_aa_KP_classification),
   ("rfc7906.id_enumeratedPermissiveAttributes", Rfc7906.id_enumeratedPermissiveAttributes),
   ("rfc7906.id_enumeratedRestrictiveAttributes", Rfc7906.id_enumeratedRestrictiveAttributes),
   ("rfc7906.id_informativeAttributes", Rfc7906.id_informativeAttributes),
   ("rfc7906.SecurityAttribute__0", Rfc7906.SecurityAttribute__0),
   ("rfc7906.SecurityAttribute", Rfc7906.SecurityAttribute),
   ("rfc7906.EnumeratedTag__0", Rfc7906.EnumeratedTag__0),
   ("rfc7906.EnumeratedTag", Rfc7906.EnumeratedTag),
   ("rfc7906.FreeFormField__0", Rfc7906.FreeFormField__0),
   ("rfc7906.FreeFormField", Rfc7906.FreeFormField),
   ("rfc7906.InformativeTag__0", Rfc7906.InformativeTag__0),
   ("rfc7906.InformativeTag", Rfc7906.InformativeTag),
   ("rfc7906.Classification", Rfc7906.Classification),
   ("rfc7906.id_kma_splitID", Rfc7906.id_kma_splitID),
   ("rfc7906.SplitID__0", Rfc7906.SplitID__0),
   ("rfc7906.SplitID", Rfc7906.SplitID),
   ("rfc7906.id_kma_keyPkgType", Rfc7906.id_kma_keyPkgType),
   ("rfc7906.KeyPkgType", Rfc7906.KeyPkgType),
   ("rfc7906.id_kma_sigUsageV3", Rfc7906.id_kma_sigUsageV3),
   ("rfc7906.SignatureUsage", Rfc7906.SignatureUsage),
   ("rfc7906.id_kma_otherCertFormats", Rfc7906.id_kma_otherCertFormats),
   ("rfc7906.aa_otherCertificateFormats", Rfc7906.aa_otherCertificateFormats),
   ("rfc7906.id_at_pkiPath", Rfc7906.id_at_pkiPath),
   ("rfc7906.PkiPath__0", Rfc7906.PkiPath__0),
   ("rfc7906.PkiPath__1", Rfc7906.PkiPath__1),
   ("rfc7906.PkiPath", Rfc7906.PkiPath),
   ("rfc7906.id_kma_usefulCerts", Rfc7906.id_kma_usefulCerts),
   ("rfc7906.id_kma_keyWrapAlgorithm", Rfc7906.id_kma_keyWrapAlgorithm),
   ("rfc7906.id_aa_KP_contentDecryptKeyID", Rfc7906.id_aa_KP_contentDecryptKeyID),
   ("rfc7906.ContentDecryptKeyID", Rfc7906.ContentDecryptKeyID),
   ("rfc7906.id_aa_KP_crlPointers", Rfc7906.id_aa_KP_crlPointers),
   ("rfc7906.id_errorCodes", Rfc7906.id_errorCodes),
   ("rfc7906.id_missingKeyType", Rfc7906.id_missingKeyType),
   ("rfc7906.id_privacyMarkTooLong", Rfc7906.id_privacyMarkTooLong),
   ("rfc7906.id_unrecognizedSecurityPolicy", Rfc7906.id_unrecognizedSecurityPolicy)]

def Rfc7906.fills : List (String × Py.Proto) :=
  [("rfc7906.aa_keyProvince_v2__0", Rfc7906.aa_keyProvince_v2__0),
   ("rfc7906.aa_keyProvince_v2__1", Rfc7906.aa_keyProvince_v2__1),
   ("rfc7906.aa_keyProvince_v2", Rfc7906.aa_keyProvince_v2),
   ("rfc7906.aa_manifest__0", Rfc7906.aa_manifest__0),
   ("rfc7906.aa_manifest__1", Rfc7906.aa_manifest__1),
   ("rfc7906.aa_manifest", Rfc7906.aa_manifest),
   ("rfc7906.aa_keyAlgorithm__0", Rfc7906.aa_keyAlgorithm__0),
   ("rfc7906.aa_keyAlgorithm__1", Rfc7906.aa_keyAlgorithm__1),
   ("rfc7906.aa_keyAlgorithm", Rfc7906.aa_keyAlgorithm),
   ("rfc7906.aa_userCertificate__0", Rfc7906.aa_userCertificate__0),
   ("rfc7906.aa_userCertificate__1", Rfc7906.aa_userCertificate__1),
   ("rfc7906.aa_userCertificate", Rfc7906.aa_userCertificate),
   ("rfc7906.aa_keyPackageReceivers_v2__0", Rfc7906.aa_keyPackageReceivers_v2__0),
   ("rfc7906.aa_keyPackageReceivers_v2__1", Rfc7906.aa_keyPackageReceivers_v2__1),
   ("rfc7906.aa_keyPackageReceivers_v2", Rfc7906.aa_keyPackageReceivers_v2),
   ("rfc7906.aa_tsecNomenclature__0", Rfc7906.aa_tsecNomenclature__0),
   ("rfc7906.aa_tsecNomenclature__1", Rfc7906.aa_tsecNomenclature__1),
   ("rfc7906.aa_tsecNomenclature", Rfc7906.aa_tsecNomenclature),
   ("rfc7906.aa_keyPurpose__0", Rfc7906.aa_keyPurpose__0),
   ("rfc7906.aa_keyPurpose__1", Rfc7906.aa_keyPurpose__1),
   ("rfc7906.aa_keyPurpose__2", Rfc7906.aa_keyPurpose__2),
   ("rfc7906.aa_keyPurpose__3", Rfc7906.aa_keyPurpose__3),
   ("rfc7906.aa_keyPurpose", Rfc7906.aa_keyPurpose),
   ("rfc7906.aa_transportKey__0", Rfc7906.aa_transportKey__0),
   ("rfc7906.aa_transportKey__1", Rfc7906.aa_transportKey__1),
   ("rfc7906.aa_transportKey", Rfc7906.aa_transportKey),
   ("rfc7906.aa_keyDistributionPeriod__0", Rfc7906.aa_keyDistributionPeriod__0),
   ("rfc7906.aa_keyDistributionPeriod__1", Rfc7906.aa_keyDistributionPeriod__1),
   ("rfc7906.aa_keyDistributionPeriod", Rfc7906.aa_keyDistributionPeriod),
   ("rfc7906.aa_keyValidityPeriod__0", Rfc7906.aa_keyValidityPeriod__0),
   ("rfc7906.aa_keyValidityPeriod__1", Rfc7906.aa_keyValidityPeriod__1),
   ("rfc7906.aa_keyValidityPeriod", Rfc7906.aa_keyValidityPeriod),
   ("rfc7906.aa_keyDurationPeriod__0", Rfc7906.aa_keyDurationPeriod__0),
   ("rfc7906.aa_keyDurationPeriod__1", Rfc7906.aa_keyDurationPeriod__1),
   ("rfc7906.aa_keyDurationPeriod", Rfc7906.aa_keyDurationPeriod),
   ("rfc7906.aa_classification__0", Rfc7906.aa_classification__0),
   ("rfc7906.aa_classification__1", Rfc7906.aa_classification__1),
   ("rfc7906.aa_classification", Rfc7906.aa_classification),
   ("rfc7906.aa_splitIdentifier__0", Rfc7906.aa_splitIdentifier__0),
   ("rfc7906.aa_splitIdentifier__1", Rfc7906.aa_splitIdentifier__1),
   ("rfc7906.aa_splitIdentifier", Rfc7906.aa_splitIdentifier),
   ("rfc7906.aa_keyPackageType__0", Rfc7906.aa_keyPackageType__0),
   ("rfc7906.aa_keyPackageType__1", Rfc7906.aa_keyPackageType__1),
   ("rfc7906.aa_keyPackageType", Rfc7906.aa_keyPackageType),
   ("rfc7906.aa_signatureUsage_v3__0", Rfc7906.aa_signatureUsage_v3__0),
   ("rfc7906.aa_signatureUsage_v3__1", Rfc7906.aa_signatureUsage_v3__1),
   ("rfc7906.aa_signatureUsage_v3__2", Rfc7906.aa_signatureUsage_v3__2),
   ("rfc7906.aa_signatureUsage_v3__3", Rfc7906.aa_signatureUsage_v3__3),
   ("rfc7906.aa_signatureUsage_v3", Rfc7906.aa_signatureUsage_v3),
   ("rfc7906.aa_pkiPath__0", Rfc7906.aa_pkiPath__0),
   ("rfc7906.aa_pkiPath__1", Rfc7906.aa_pkiPath__1),
   ("rfc7906.aa_pkiPath", Rfc7906.aa_pkiPath),
   ("rfc7906.aa_usefulCertificates__0", Rfc7906.aa_usefulCertificates__0),
   ("rfc7906.aa_usefulCertificates__1", Rfc7906.aa_usefulCertificates__1),
   ("rfc7906.aa_usefulCertificates", Rfc7906.aa_usefulCertificates),
   ("rfc7906.aa_keyWrapAlgorithm__0", Rfc7906.aa_keyWrapAlgorithm__0),
   ("rfc7906.aa_keyWrapAlgorithm__1", Rfc7906.aa_keyWrapAlgorithm__1),
   ("rfc7906.aa_keyWrapAlgorithm", Rfc7906.aa_keyWrapAlgorithm),
   ("rfc7906.aa_contentDecryptKeyIdentifier__0", Rfc7906.aa_contentDecryptKeyIdentifier__0),
   ("rfc7906.aa_contentDecryptKeyIdentifier__1", Rfc7906.aa_contentDecryptKeyIdentifier__1),
   ("rfc7906.aa_contentDecryptKeyIdentifier", Rfc7906.aa_contentDecryptKeyIdentifier),
   ("rfc7906.aa_certificatePointers__0", Rfc7906.aa_certificatePointers__0),
   ("rfc7906.aa_certificatePointers__1", Rfc7906.aa_certificatePointers__1),
   ("rfc7906.aa_certificatePointers", Rfc7906.aa_certificatePointers),
   ("rfc7906.aa_cRLDistributionPoints__0", Rfc7906.aa_cRLDistributionPoints__0),
   ("rfc7906.aa_cRLDistributionPoints__1", Rfc7906.aa_cRLDistributionPoints__1),
   ("rfc7906.aa_cRLDistributionPoints", Rfc7906.aa_cRLDistributionPoints)]

def Rfc7914.steps : List (String × Py.Obj) :=
  [("rfc7914.id_scrypt", Rfc7914.id_scrypt),
   ("rfc7914.Scrypt_params", Rfc7914.Scrypt_params)]

def Rfc7914.fills : List (String × Py.Proto) :=
  []

def Rfc8017.steps : List (String × Py.Obj) :=
  [("rfc8017.AlgorithmIdentifier", Rfc8017.AlgorithmIdentifier),
   ("rfc8017.DigestAlgorithm", Rfc8017.DigestAlgorithm),
   ("rfc8017.HashAlgorithm", Rfc8017.HashAlgorithm),
   ("rfc8017.MaskGenAlgorithm", Rfc8017.MaskGenAlgorithm),
   ("rfc8017.PSourceAlgorithm", Rfc8017.PSourceAlgorithm),
   ("rfc8017.hashAlgs", Rfc8017.hashAlgs),
   ("rfc8017.id_sha256", Rfc8017.id_sha256),
   ("rfc8017.id_sha384", Rfc8017.id_sha384),
   ("rfc8017.id_sha512", Rfc8017.id_sha512),
   ("rfc8017.id_sha224", Rfc8017.id_sha224),
   ("rfc8017.id_sha512_224", Rfc8017.id_sha512_224),
   ("rfc8017.id_sha512_256", Rfc8017.id_sha512_256),
   ("rfc8017.pkcs_1", Rfc8017.pkcs_1),
   ("rfc8017.rsaEncryption", Rfc8017.rsaEncryption),
   ("rfc8017.id_RSAES_OAEP", Rfc8017.id_RSAES_OAEP),
   ("rfc8017.id_pSpecified", Rfc8017.id_pSpecified),
   ("rfc8017.id_RSASSA_PSS", Rfc8017.id_RSASSA_PSS),
   ("rfc8017.md2WithRSAEncryption", Rfc8017.md2WithRSAEncryption),
   ("rfc8017.md5WithRSAEncryption", Rfc8017.md5WithRSAEncryption),
   ("rfc8017.sha1WithRSAEncryption", Rfc8017.sha1WithRSAEncryption),
   ("rfc8017.sha224WithRSAEncryption", Rfc8017.sha224WithRSAEncryption),
   ("rfc8017.sha256WithRSAEncryption", Rfc8017.sha256WithRSAEncryption),
   ("rfc8017.sha384WithRSAEncryption", Rfc8017.sha384WithRSAEncryption),
   ("rfc8017.sha512WithRSAEncryption", Rfc8017.sha512WithRSAEncryption),
   ("rfc8017.sha512_224WithRSAEncryption", Rfc8017.sha512_224WithRSAEncryption),
   ("rfc8017.sha512_256WithRSAEncryption", Rfc8017.sha512_256WithRSAEncryption),
   ("rfc8017.id_sha1", Rfc8017.id_sha1),
   ("rfc8017.id_md2", Rfc8017.id_md2),
   ("rfc8017.id_md5", Rfc8017.id_md5),
   ("rfc8017.id_mgf1", Rfc8017.id_mgf1),
   ("rfc8017.SHA1Parameters", Rfc8017.SHA1Parameters),
   ("rfc8017.EncodingParameters", Rfc8017.EncodingParameters),
   ("rfc8017.emptyString", Rfc8017.emptyString),
   ("rfc8017.Version", Rfc8017.Version),
   ("rfc8017.TrailerField", Rfc8017.TrailerField),
   ("rfc8017.RSAPublicKey", Rfc8017.RSAPublicKey),
   ("rfc8017.OtherPrimeInfo", Rfc8017.OtherPrimeInfo),
   ("rfc8017.OtherPrimeInfos", Rfc8017.OtherPrimeInfos),
   ("rfc8017.RSAPrivateKey", Rfc8017.RSAPrivateKey),
   ("rfc8017.RSAES_OAEP_params", Rfc8017.RSAES_OAEP_params),
   ("rfc8017.RSASSA_PSS_params", Rfc8017.RSASSA_PSS_params),
   ("rfc8017.DigestInfo", Rfc8017.DigestInfo)]

def Rfc8017.fills : List (String × Py.Proto) :=
  [("rfc8017.sha1", Rfc8017.sha1),
   ("rfc8017.mgf1SHA1", Rfc8017.mgf1SHA1),
   ("rfc8017.pSpecifiedEmpty", Rfc8017.pSpecifiedEmpty),
   ("rfc8017.rSAES_OAEP_Default_Identifier", Rfc8017.rSAES_OAEP_Default_Identifier),
   ("rfc8017.rSASSA_PSS_Default_Identifier", Rfc8017.rSASSA_PSS_Default_Identifier)]

def Rfc8018.steps : List (String × Py.Obj) :=
  [("rfc8018.AES_IV__0", Rfc8018.AES_IV__0),
   ("rfc8018.AlgorithmIdentifier", Rfc8018.AlgorithmIdentifier),
   ("rfc8018.nistAlgorithms", Rfc8018.nistAlgorithms),
   ("rfc8018.aes", Rfc8018.aes),
   ("rfc8018.oiw", Rfc8018.oiw),
   ("rfc8018.rsadsi", Rfc8018.rsadsi),
   ("rfc8018.pkcs", Rfc8018.pkcs),
   ("rfc8018.digestAlgorithm", Rfc8018.digestAlgorithm),
   ("rfc8018.encryptionAlgorithm", Rfc8018.encryptionAlgorithm),
   ("rfc8018.pkcs_5", Rfc8018.pkcs_5),
   ("rfc8018.id_hmacWithSHA1", Rfc8018.id_hmacWithSHA1),
   ("rfc8018.id_hmacWithSHA224", Rfc8018.id_hmacWithSHA224),
   ("rfc8018.id_hmacWithSHA256", Rfc8018.id_hmacWithSHA256),
   ("rfc8018.id_hmacWithSHA384", Rfc8018.id_hmacWithSHA384),
   ("rfc8018.id_hmacWithSHA512", Rfc8018.id_hmacWithSHA512),
   ("rfc8018.id_hmacWithSHA512_224", Rfc8018.id_hmacWithSHA512_224),
   ("rfc8018.id_hmacWithSHA512_256", Rfc8018.id_hmacWithSHA512_256),
   ("rfc8018.pbeWithMD2AndDES_CBC", Rfc8018.pbeWithMD2AndDES_CBC),
   ("rfc8018.pbeWithMD2AndRC2_CBC", Rfc8018.pbeWithMD2AndRC2_CBC),
   ("rfc8018.pbeWithMD5AndDES_CBC", Rfc8018.pbeWithMD5AndDES_CBC),
   ("rfc8018.pbeWithMD5AndRC2_CBC", Rfc8018.pbeWithMD5AndRC2_CBC),
   ("rfc8018.pbeWithSHA1AndDES_CBC", Rfc8018.pbeWithSHA1AndDES_CBC),
   ("rfc8018.pbeWithSHA1AndRC2_CBC", Rfc8018.pbeWithSHA1AndRC2_CBC),
   ("rfc8018.desCBC", Rfc8018.desCBC),
   ("rfc8018.des_EDE3_CBC", Rfc8018.des_EDE3_CBC),
   ("rfc8018.rc2CBC", Rfc8018.rc2CBC),
   ("rfc8018.rc5_CBC_PAD", Rfc8018.rc5_CBC_PAD),
   ("rfc8018.aes128_CBC_PAD", Rfc8018.aes128_CBC_PAD),
   ("rfc8018.aes192_CBC_PAD", Rfc8018.aes192_CBC_PAD),
   ("rfc8018.aes256_CBC_PAD", Rfc8018.aes256_CBC_PAD),
   ("rfc8018.PBEParameter__0", Rfc8018.PBEParameter__0),
   ("rfc8018.PBEParameter", Rfc8018.PBEParameter),
   ("rfc8018.id_PBES2", Rfc8018.id_PBES2),
   ("rfc8018.PBES2_params__0", Rfc8018.PBES2_params__0),
   ("rfc8018.PBES2_params", Rfc8018.PBES2_params),
   ("rfc8018.id_PBMAC1", Rfc8018.id_PBMAC1),
   ("rfc8018.PBMAC1_params__0", Rfc8018.PBMAC1_params__0),
   ("rfc8018.PBMAC1_params", Rfc8018.PBMAC1_params),
   ("rfc8018.id_PBKDF2", Rfc8018.id_PBKDF2),
   ("rfc8018.PBKDF2_params__0", Rfc8018.PBKDF2_params__0),
   ("rfc8018.PBKDF2_params", Rfc8018.PBKDF2_params),
   ("rfc8018.RC2_CBC_Parameter__0", Rfc8018.RC2_CBC_Parameter__0),
   ("rfc8018.RC2_CBC_Parameter", Rfc8018.RC2_CBC_Parameter),
   ("rfc8018.RC5_CBC_Parameters__0", Rfc8018.RC5_CBC_Parameters__0),
   ("rfc8018.RC5_CBC_Parameters", Rfc8018.RC5_CBC_Parameters),
   ("rfc8018.AES_IV__1", Rfc8018.AES_IV__1),
   ("rfc8018.AES_IV", Rfc8018.AES_IV),
   ("rfc8018.DES_IV__0", Rfc8018.DES_IV__0),
   ("rfc8018.DES_IV", Rfc8018.DES_IV)]

def Rfc8018.fills : List (String × Py.Proto) :=
  [("rfc8018.algid_hmacWithSHA1__0", Rfc8018.algid_hmacWithSHA1__0),
   ("rfc8018.algid_hmacWithSHA1__1", Rfc8018.algid_hmacWithSHA1__1),
   ("rfc8018.algid_hmacWithSHA1", Rfc8018.algid_hmacWithSHA1)]

def Rfc8103.steps : List (String × Py.Obj) :=
  [("rfc8103.AEADChaCha20Poly1305Nonce__0", Rfc8103.AEADChaCha20Poly1305Nonce__0),
   ("rfc8103.AEADChaCha20Poly1305Nonce", Rfc8103.AEADChaCha20Poly1305Nonce),
   ("rfc8103.id_alg_AEADChaCha20Poly1305", Rfc8103.id_alg_AEADChaCha20Poly1305)]

def Rfc8103.fills : List (String × Py.Proto) :=
  []

def Rfc8209.steps : List (String × Py.Obj) :=
  [("rfc8209.id_kp", Rfc8209.id_kp),
   ("rfc8209.id_kp_bgpsec_router", Rfc8209.id_kp_bgpsec_router)]

def Rfc8209.fills : List (String × Py.Proto) :=
  []

def Rfc8226.steps : List (String × Py.Obj) :=
  [("rfc8226.JWTClaimName", Rfc8226.JWTClaimName),
   ("rfc8226.JWTClaimNames__0", Rfc8226.JWTClaimNames__0),
   ("rfc8226.JWTClaimNames__1", Rfc8226.JWTClaimNames__1),
   ("rfc8226.JWTClaimNames", Rfc8226.JWTClaimNames),
   ("rfc8226.JWTClaimPermittedValues__0", Rfc8226.JWTClaimPermittedValues__0),
   ("rfc8226.JWTClaimPermittedValues", Rfc8226.JWTClaimPermittedValues),
   ("rfc8226.JWTClaimPermittedValuesList__0", Rfc8226.JWTClaimPermittedValuesList__0),
   ("rfc8226.JWTClaimPermittedValuesList__1", Rfc8226.JWTClaimPermittedValuesList__1),
   ("rfc8226.JWTClaimPermittedValuesList", Rfc8226.JWTClaimPermittedValuesList),
   ("rfc8226.JWTClaimConstraints__0", Rfc8226.JWTClaimConstraints__0),
   ("rfc8226.JWTClaimConstraints__1", Rfc8226.JWTClaimConstraints__1),
   ("rfc8226.JWTClaimConstraints", Rfc8226.JWTClaimConstraints),
   ("rfc8226.id_pe_JWTClaimConstraints", Rfc8226.id_pe_JWTClaimConstraints),
   ("rfc8226.ServiceProviderCode", Rfc8226.ServiceProviderCode),
   ("rfc8226.TelephoneNumber__0", Rfc8226.TelephoneNumber__0),
   ("rfc8226.TelephoneNumber", Rfc8226.TelephoneNumber),
   ("rfc8226.TelephoneNumberRange__0", Rfc8226.TelephoneNumberRange__0),
   ("rfc8226.TelephoneNumberRange", Rfc8226.TelephoneNumberRange),
   ("rfc8226.TNEntry__0", Rfc8226.TNEntry__0),
   ("rfc8226.TNEntry", Rfc8226.TNEntry),
   ("rfc8226.TNAuthorizationList__0", Rfc8226.TNAuthorizationList__0),
   ("rfc8226.TNAuthorizationList__1", Rfc8226.TNAuthorizationList__1),
   ("rfc8226.TNAuthorizationList", Rfc8226.TNAuthorizationList),
   ("rfc8226.id_pe_TNAuthList", Rfc8226.id_pe_TNAuthList),
   ("rfc8226.id_ad_stirTNList", Rfc8226.id_ad_stirTNList)]

def Rfc8226.fills : List (String × Py.Proto) :=
  []

def Rfc8358.steps : List (String × Py.Obj) :=
  [("rfc8358.id_ct", Rfc8358.id_ct),
   ("rfc8358.id_ct_asciiTextWithCRLF", Rfc8358.id_ct_asciiTextWithCRLF),
   ("rfc8358.id_ct_epub", Rfc8358.id_ct_epub),
   ("rfc8358.id_ct_htmlWithCRLF", Rfc8358.id_ct_htmlWithCRLF),
   ("rfc8358.id_ct_pdf", Rfc8358.id_ct_pdf),
   ("rfc8358.id_ct_postscript", Rfc8358.id_ct_postscript),
   ("rfc8358.id_ct_utf8TextWithCRLF", Rfc8358.id_ct_utf8TextWithCRLF),
   ("rfc8358.id_ct_xml", Rfc8358.id_ct_xml)]

def Rfc8358.fills : List (String × Py.Proto) :=
  []

def Rfc8360.steps : List (String × Py.Obj) :=
  [("rfc8360.id_pe_ipAddrBlocks_v2", Rfc8360.id_pe_ipAddrBlocks_v2),
   ("rfc8360.IPAddrBlocks", Rfc8360.IPAddrBlocks),
   ("rfc8360.id_pe_autonomousSysIds_v2", Rfc8360.id_pe_autonomousSysIds_v2),
   ("rfc8360.ASIdentifiers", Rfc8360.ASIdentifiers)]

def Rfc8360.fills : List (String × Py.Proto) :=
  []

def Rfc8398.steps : List (String × Py.Obj) :=
  [("rfc8398.id_pkix", Rfc8398.id_pkix),
   ("rfc8398.id_on", Rfc8398.id_on),
   ("rfc8398.id_on_SmtpUTF8Mailbox", Rfc8398.id_on_SmtpUTF8Mailbox),
   ("rfc8398.SmtpUTF8Mailbox__0", Rfc8398.SmtpUTF8Mailbox__0),
   ("rfc8398.SmtpUTF8Mailbox", Rfc8398.SmtpUTF8Mailbox)]

def Rfc8398.fills : List (String × Py.Proto) :=
  [("rfc8398.on_SmtpUTF8Mailbox__0", Rfc8398.on_SmtpUTF8Mailbox__0),
   ("rfc8398.on_SmtpUTF8Mailbox__1", Rfc8398.on_SmtpUTF8Mailbox__1),
   ("rfc8398.on_SmtpUTF8Mailbox", Rfc8398.on_SmtpUTF8Mailbox)]

def Rfc8410.steps : List (String × Py.Obj) :=
  [("rfc8410.SignatureAlgorithmIdentifier", Rfc8410.SignatureAlgorithmIdentifier),
   ("rfc8410.KeyEncryptionAlgorithmIdentifier", Rfc8410.KeyEncryptionAlgorithmIdentifier),
   ("rfc8410.CurvePrivateKey", Rfc8410.CurvePrivateKey),
   ("rfc8410.id_X25519", Rfc8410.id_X25519),
   ("rfc8410.id_X448", Rfc8410.id_X448),
   ("rfc8410.id_Ed25519", Rfc8410.id_Ed25519),
   ("rfc8410.id_Ed448", Rfc8410.id_Ed448),
   ("rfc8410.id_sha512", Rfc8410.id_sha512),
   ("rfc8410.id_aes128_wrap", Rfc8410.id_aes128_wrap),
   ("rfc8410.id_aes256_wrap", Rfc8410.id_aes256_wrap)]

def Rfc8410.fills : List (String × Py.Proto) :=
  []

def Rfc8418.steps : List (String × Py.Obj) :=
  [("rfc8418.KeyEncryptionAlgorithmIdentifier", Rfc8418.KeyEncryptionAlgorithmIdentifier),
   ("rfc8418.KeyWrapAlgorithmIdentifier", Rfc8418.KeyWrapAlgorithmIdentifier),
   ("rfc8418.dhSinglePass_stdDH_sha256kdf_scheme", Rfc8418.dhSinglePass_stdDH_sha256kdf_scheme),
   ("rfc8418.dhSinglePass_stdDH_sha384kdf_scheme", Rfc8418.dhSinglePass_stdDH_sha384kdf_scheme),
   ("rfc8418.dhSinglePass_stdDH_sha512kdf_scheme", Rfc8418.dhSinglePass_stdDH_sha512kdf_scheme),
   ("rfc8418.dhSinglePass_stdDH_hkdf_sha256_scheme", Rfc8418.dhSinglePass_stdDH_hkdf_sha256_scheme),
   ("rfc8418.dhSinglePass_stdDH_hkdf_sha384_scheme", Rfc8418.dhSinglePass_stdDH_hkdf_sha384_scheme),
   ("rfc8418.dhSinglePass_stdDH_hkdf_sha512_scheme", Rfc8418.dhSinglePass_stdDH_hkdf_sha512_scheme)]

def Rfc8418.fills : List (String × Py.Proto) :=
  []

def Rfc8419.steps : List (String × Py.Obj) :=
  [("rfc8419.ShakeOutputLen", Rfc8419.ShakeOutputLen),
   ("rfc8419.id_Ed25519", Rfc8419.id_Ed25519),
   ("rfc8419.id_Ed448", Rfc8419.id_Ed448),
   ("rfc8419.hashAlgs", Rfc8419.hashAlgs),
   ("rfc8419.id_sha512", Rfc8419.id_sha512),
   ("rfc8419.id_shake256", Rfc8419.id_shake256),
   ("rfc8419.id_shake256_len", Rfc8419.id_shake256_len)]

def Rfc8419.fills : List (String × Py.Proto) :=
  [("rfc8419.sigAlg_Ed25519__0", Rfc8419.sigAlg_Ed25519__0),
   ("rfc8419.sigAlg_Ed25519", Rfc8419.sigAlg_Ed25519),
   ("rfc8419.sigAlg_Ed448__0", Rfc8419.sigAlg_Ed448__0),
   ("rfc8419.sigAlg_Ed448", Rfc8419.sigAlg_Ed448),
   ("rfc8419.hashAlg_SHA_512__0", Rfc8419.hashAlg_SHA_512__0),
   ("rfc8419.hashAlg_SHA_512", Rfc8419.hashAlg_SHA_512),
   ("rfc8419.hashAlg_SHAKE256__0", Rfc8419.hashAlg_SHAKE256__0),
   ("rfc8419.hashAlg_SHAKE256", Rfc8419.hashAlg_SHAKE256),
   ("rfc8419.hashAlg_SHAKE256_LEN__0", Rfc8419.hashAlg_SHAKE256_LEN__0),
   ("rfc8419.hashAlg_SHAKE256_LEN__1", Rfc8419.hashAlg_SHAKE256_LEN__1),
   ("rfc8419.hashAlg_SHAKE256_LEN", Rfc8419.hashAlg_SHAKE256_LEN)]

def Rfc8479.steps : List (String × Py.Obj) :=
  [("rfc8479.id_attr_validation_parameters", Rfc8479.id_attr_validation_parameters),
   ("rfc8479.ValidationParams__0", Rfc8479.ValidationParams__0),
   ("rfc8479.ValidationParams", Rfc8479.ValidationParams)]

def Rfc8479.fills : List (String × Py.Proto) :=
  [("rfc8479.at_validation_parameters__0", Rfc8479.at_validation_parameters__0),
   ("rfc8479.at_validation_parameters__1", Rfc8479.at_validation_parameters__1),
   ("rfc8479.at_validation_parameters", Rfc8479.at_validation_parameters)]

def Rfc8494.steps : List (String × Py.Obj) :=
  [("rfc8494.id_mmhs_CDT", Rfc8494.id_mmhs_CDT),
   ("rfc8494.AlgorithmID_ShortForm__0", Rfc8494.AlgorithmID_ShortForm__0),
   ("rfc8494.AlgorithmID_ShortForm", Rfc8494.AlgorithmID_ShortForm),
   ("rfc8494.ContentType_ShortForm__0", Rfc8494.ContentType_ShortForm__0),
   ("rfc8494.ContentType_ShortForm", Rfc8494.ContentType_ShortForm),
   ("rfc8494.CompressedContentInfo__0", Rfc8494.CompressedContentInfo__0),
   ("rfc8494.CompressedContentInfo", Rfc8494.CompressedContentInfo),
   ("rfc8494.CompressionAlgorithmIdentifier__0", Rfc8494.CompressionAlgorithmIdentifier__0),
   ("rfc8494.CompressionAlgorithmIdentifier", Rfc8494.CompressionAlgorithmIdentifier),
   ("rfc8494.CompressedData__0", Rfc8494.CompressedData__0),
   ("rfc8494.CompressedData", Rfc8494.CompressedData)]

def Rfc8494.fills : List (String × Py.Proto) :=
  []

def Rfc8520.steps : List (String × Py.Obj) :=
  [("rfc8520.id_pe_mud_url", Rfc8520.id_pe_mud_url),
   ("rfc8520.MUDURLSyntax", Rfc8520.MUDURLSyntax),
   ("rfc8520.id_pe_mudsigner", Rfc8520.id_pe_mudsigner),
   ("rfc8520.MUDsignerSyntax", Rfc8520.MUDsignerSyntax),
   ("rfc8520.id_ct_mudtype", Rfc8520.id_ct_mudtype)]

def Rfc8520.fills : List (String × Py.Proto) :=
  []

def Rfc8619.steps : List (String × Py.Obj) :=
  [("rfc8619.id_alg_hkdf_with_sha256", Rfc8619.id_alg_hkdf_with_sha256),
   ("rfc8619.id_alg_hkdf_with_sha384", Rfc8619.id_alg_hkdf_with_sha384),
   ("rfc8619.id_alg_hkdf_with_sha512", Rfc8619.id_alg_hkdf_with_sha512)]

def Rfc8619.fills : List (String × Py.Proto) :=
  [("rfc8619.kda_hkdf_with_sha256__0", Rfc8619.kda_hkdf_with_sha256__0),
   ("rfc8619.kda_hkdf_with_sha256", Rfc8619.kda_hkdf_with_sha256),
   ("rfc8619.kda_hkdf_with_sha384__0", Rfc8619.kda_hkdf_with_sha384__0),
   ("rfc8619.kda_hkdf_with_sha384", Rfc8619.kda_hkdf_with_sha384),
   ("rfc8619.kda_hkdf_with_sha512__0", Rfc8619.kda_hkdf_with_sha512__0),
   ("rfc8619.kda_hkdf_with_sha512", Rfc8619.kda_hkdf_with_sha512)]

def Rfc8649.steps : List (String × Py.Obj) :=
  [("rfc8649.id_ce_hashOfRootKey", Rfc8649.id_ce_hashOfRootKey),
   ("rfc8649.HashedRootKey__0", Rfc8649.HashedRootKey__0),
   ("rfc8649.HashedRootKey", Rfc8649.HashedRootKey)]

def Rfc8649.fills : List (String × Py.Proto) :=
  []

def Rfc8692.steps : List (String × Py.Obj) :=
  [("rfc8692.id_shake128", Rfc8692.id_shake128),
   ("rfc8692.id_shake256", Rfc8692.id_shake256),
   ("rfc8692.id_RSASSA_PSS_SHAKE128", Rfc8692.id_RSASSA_PSS_SHAKE128),
   ("rfc8692.pk_rsaSSA_PSS_SHAKE128", Rfc8692.pk_rsaSSA_PSS_SHAKE128),
   ("rfc8692.id_RSASSA_PSS_SHAKE256", Rfc8692.id_RSASSA_PSS_SHAKE256),
   ("rfc8692.pk_rsaSSA_PSS_SHAKE256", Rfc8692.pk_rsaSSA_PSS_SHAKE256),
   ("rfc8692.id_ecdsa_with_shake128", Rfc8692.id_ecdsa_with_shake128),
   ("rfc8692.pk_ec", Rfc8692.pk_ec),
   ("rfc8692.id_ecdsa_with_shake256", Rfc8692.id_ecdsa_with_shake256)]

def Rfc8692.fills : List (String × Py.Proto) :=
  [("rfc8692.mda_shake128__0", Rfc8692.mda_shake128__0),
   ("rfc8692.mda_shake128", Rfc8692.mda_shake128),
   ("rfc8692.mda_shake256__0", Rfc8692.mda_shake256__0),
   ("rfc8692.mda_shake256", Rfc8692.mda_shake256),
   ("rfc8692.sa_rSASSA_PSS_SHAKE128__0", Rfc8692.sa_rSASSA_PSS_SHAKE128__0),
   ("rfc8692.sa_rSASSA_PSS_SHAKE128", Rfc8692.sa_rSASSA_PSS_SHAKE128),
   ("rfc8692.sa_rSASSA_PSS_SHAKE256__0", Rfc8692.sa_rSASSA_PSS_SHAKE256__0),
   ("rfc8692.sa_rSASSA_PSS_SHAKE256", Rfc8692.sa_rSASSA_PSS_SHAKE256),
   ("rfc8692.sa_ecdsa_with_shake128__0", Rfc8692.sa_ecdsa_with_shake128__0),
   ("rfc8692.sa_ecdsa_with_shake128", Rfc8692.sa_ecdsa_with_shake128),
   ("rfc8692.sa_ecdsa_with_shake256__0", Rfc8692.sa_ecdsa_with_shake256__0),
   ("rfc8692.sa_ecdsa_with_shake256", Rfc8692.sa_ecdsa_with_shake256)]

def Rfc8696.steps : List (String × Py.Obj) :=
  [("rfc8696.id_ori", Rfc8696.id_ori),
   ("rfc8696.id_ori_keyTransPSK", Rfc8696.id_ori_keyTransPSK),
   ("rfc8696.id_ori_keyAgreePSK", Rfc8696.id_ori_keyAgreePSK),
   ("rfc8696.PreSharedKeyIdentifier", Rfc8696.PreSharedKeyIdentifier),
   ("rfc8696.KeyTransRecipientInfos", Rfc8696.KeyTransRecipientInfos),
   ("rfc8696.KeyTransPSKRecipientInfo", Rfc8696.KeyTransPSKRecipientInfo),
   ("rfc8696.KeyAgreePSKRecipientInfo", Rfc8696.KeyAgreePSKRecipientInfo),
   ("rfc8696.CMSORIforPSKOtherInfo", Rfc8696.CMSORIforPSKOtherInfo)]

def Rfc8696.fills : List (String × Py.Proto) :=
  []

def Rfc8702.steps : List (String × Py.Obj) :=
  [("rfc8702.AlgorithmIdentifier", Rfc8702.AlgorithmIdentifier),
   ("rfc8702.id_shake128", Rfc8702.id_shake128),
   ("rfc8702.id_shake256", Rfc8702.id_shake256),
   ("rfc8702.id_RSASSA_PSS_SHAKE128", Rfc8702.id_RSASSA_PSS_SHAKE128),
   ("rfc8702.pk_rsaSSA_PSS_SHAKE128", Rfc8702.pk_rsaSSA_PSS_SHAKE128),
   ("rfc8702.id_RSASSA_PSS_SHAKE256", Rfc8702.id_RSASSA_PSS_SHAKE256),
   ("rfc8702.pk_rsaSSA_PSS_SHAKE256", Rfc8702.pk_rsaSSA_PSS_SHAKE256),
   ("rfc8702.id_ecdsa_with_shake128", Rfc8702.id_ecdsa_with_shake128),
   ("rfc8702.id_ecdsa_with_shake256", Rfc8702.id_ecdsa_with_shake256),
   ("rfc8702.pk_ec", Rfc8702.pk_ec),
   ("rfc8702.id_KMACWithSHAKE128", Rfc8702.id_KMACWithSHAKE128),
   ("rfc8702.KMACwithSHAKE128_params", Rfc8702.KMACwithSHAKE128_params),
   ("rfc8702.id_KMACWithSHAKE256", Rfc8702.id_KMACWithSHAKE256),
   ("rfc8702.KMACwithSHAKE256_params", Rfc8702.KMACwithSHAKE256_params)]

def Rfc8702.fills : List (String × Py.Proto) :=
  [("rfc8702.mda_shake128", Rfc8702.mda_shake128),
   ("rfc8702.mda_shake256", Rfc8702.mda_shake256),
   ("rfc8702.sa_rSASSA_PSS_SHAKE128", Rfc8702.sa_rSASSA_PSS_SHAKE128),
   ("rfc8702.sa_rSASSA_PSS_SHAKE256", Rfc8702.sa_rSASSA_PSS_SHAKE256),
   ("rfc8702.sa_ecdsa_with_shake128", Rfc8702.sa_ecdsa_with_shake128),
   ("rfc8702.sa_ecdsa_with_shake256", Rfc8702.sa_ecdsa_with_shake256),
   ("rfc8702.maca_KMACwithSHAKE128__0", Rfc8702.maca_KMACwithSHAKE128__0),
   ("rfc8702.maca_KMACwithSHAKE128__1", Rfc8702.maca_KMACwithSHAKE128__1),
   ("rfc8702.maca_KMACwithSHAKE128", Rfc8702.maca_KMACwithSHAKE128),
   ("rfc8702.maca_KMACwithSHAKE256__0", Rfc8702.maca_KMACwithSHAKE256__0),
   ("rfc8702.maca_KMACwithSHAKE256__1", Rfc8702.maca_KMACwithSHAKE256__1),
   ("rfc8702.maca_KMACwithSHAKE256", Rfc8702.maca_KMACwithSHAKE256)]

def Rfc8708.steps : List (String × Py.Obj) :=
  [("rfc8708.id_alg_hss_lms_hashsig", Rfc8708.id_alg_hss_lms_hashsig),
   ("rfc8708.id_alg_mts_hashsig", Rfc8708.id_alg_mts_hashsig),
   ("rfc8708.HSS_LMS_HashSig_PublicKey", Rfc8708.HSS_LMS_HashSig_PublicKey)]

def Rfc8708.fills : List (String × Py.Proto) :=
  [("rfc8708.sa_HSS_LMS_HashSig__0", Rfc8708.sa_HSS_LMS_HashSig__0),
   ("rfc8708.sa_HSS_LMS_HashSig", Rfc8708.sa_HSS_LMS_HashSig),
   ("rfc8708.pk_HSS_LMS_HashSig__0", Rfc8708.pk_HSS_LMS_HashSig__0),
   ("rfc8708.pk_HSS_LMS_HashSig", Rfc8708.pk_HSS_LMS_HashSig)]

def Rfc8769.steps : List (String × Py.Obj) :=
  [("rfc8769.id_ct_cbor", Rfc8769.id_ct_cbor),
   ("rfc8769.id_ct_cborSequence", Rfc8769.id_ct_cborSequence)]

def Rfc8769.fills : List (String × Py.Proto) :=
  []

def Package.steps : List (List (String × Py.Obj)) :=
  [Rfc1155.steps,
   Rfc1157.steps,
   Rfc1901.steps,
   Rfc1902.steps,
   Rfc1905.steps,
   Rfc2251.steps,
   Rfc2314.steps,
   Rfc2315.steps,
   Rfc2437.steps,
   Rfc2459.steps,
   Rfc2511.steps,
   Rfc2560.steps,
   Rfc2631.steps,
   Rfc2634.steps,
   Rfc2876.steps,
   Rfc2985.steps,
   Rfc2986.steps,
   Rfc3058.steps,
   Rfc3114.steps,
   Rfc3125.steps,
   Rfc3161.steps,
   Rfc3274.steps,
   Rfc3279.steps,
   Rfc3280.steps,
   Rfc3281.steps,
   Rfc3370.steps,
   Rfc3412.steps,
   Rfc3414.steps,
   Rfc3447.steps,
   Rfc3537.steps,
   Rfc3560.steps,
   Rfc3565.steps,
   Rfc3657.steps,
   Rfc3709.steps,
   Rfc3739.steps,
   Rfc3770.steps,
   Rfc3779.steps,
   Rfc3820.steps,
   Rfc3852.steps,
   Rfc4010.steps,
   Rfc4043.steps,
   Rfc4055.steps,
   Rfc4073.steps,
   Rfc4108.steps,
   Rfc4210.steps,
   Rfc4211.steps,
   Rfc4334.steps,
   Rfc4357.steps,
   Rfc4387.steps,
   Rfc4476.steps,
   Rfc4490.steps,
   Rfc4491.steps,
   Rfc4683.steps,
   Rfc4985.steps,
   Rfc5035.steps,
   Rfc5083.steps,
   Rfc5084.steps,
   Rfc5126.steps,
   Rfc5208.steps,
   Rfc5275.steps,
   Rfc5280.steps,
   Rfc5480.steps,
   Rfc5636.steps,
   Rfc5639.steps,
   Rfc5649.steps,
   Rfc5652.steps,
   Rfc5697.steps,
   Rfc5751.steps,
   Rfc5752.steps,
   Rfc5753.steps,
   Rfc5755.steps,
   Rfc5913.steps,
   Rfc5914.steps,
   Rfc5915.steps,
   Rfc5916.steps,
   Rfc5917.steps,
   Rfc5924.steps,
   Rfc5934.steps,
   Rfc5940.steps,
   Rfc5958.steps,
   Rfc5990.steps,
   Rfc6010.steps,
   Rfc6019.steps,
   Rfc6031.steps,
   Rfc6032.steps,
   Rfc6120.steps,
   Rfc6170.steps,
   Rfc6187.steps,
   Rfc6210.steps,
   Rfc6211.steps,
   Rfc6402.steps,
   Rfc6482.steps,
   Rfc6486.steps,
   Rfc6487.steps,
   Rfc6664.steps,
   Rfc6955.steps,
   Rfc6960.steps,
   Rfc7030.steps,
   Rfc7191.steps,
   Rfc7229.steps,
   Rfc7292.steps,
   Rfc7296.steps,
   Rfc7508.steps,
   Rfc7585.steps,
   Rfc7633.steps,
   Rfc7773.steps,
   Rfc7894.steps,
   Rfc7906.steps,
   Rfc7914.steps,
   Rfc8017.steps,
   Rfc8018.steps,
   Rfc8103.steps,
   Rfc8209.steps,
   Rfc8226.steps,
   Rfc8358.steps,
   Rfc8360.steps,
   Rfc8398.steps,
   Rfc8410.steps,
   Rfc8418.steps,
   Rfc8419.steps,
   Rfc8479.steps,
   Rfc8494.steps,
   Rfc8520.steps,
   Rfc8619.steps,
   Rfc8649.steps,
   Rfc8692.steps,
   Rfc8696.steps,
   Rfc8702.steps,
   Rfc8708.steps,
   Rfc8769.steps]

def Package.fills : List (List (String × Py.Proto)) :=
  [Rfc1155.fills,
   Rfc1157.fills,
   Rfc1901.fills,
   Rfc1902.fills,
   Rfc1905.fills,
   Rfc2251.fills,
   Rfc2314.fills,
   Rfc2315.fills,
   Rfc2437.fills,
   Rfc2459.fills,
   Rfc2511.fills,
   Rfc2560.fills,
   Rfc2631.fills,
   Rfc2634.fills,
   Rfc2876.fills,
   Rfc2985.fills,
   Rfc2986.fills,
   Rfc3058.fills,
   Rfc3114.fills,
   Rfc3125.fills,
   Rfc3161.fills,
   Rfc3274.fills,
   Rfc3279.fills,
   Rfc3280.fills,
   Rfc3281.fills,
   Rfc3370.fills,
   Rfc3412.fills,
   Rfc3414.fills,
   Rfc3447.fills,
   Rfc3537.fills,
   Rfc3560.fills,
   Rfc3565.fills,
   Rfc3657.fills,
   Rfc3709.fills,
   Rfc3739.fills,
   Rfc3770.fills,
   Rfc3779.fills,
   Rfc3820.fills,
   Rfc3852.fills,
   Rfc4010.fills,
   Rfc4043.fills,
   Rfc4055.fills,
   Rfc4073.fills,
   Rfc4108.fills,
   Rfc4210.fills,
   Rfc4211.fills,
   Rfc4334.fills,
   Rfc4357.fills,
   Rfc4387.fills,
   Rfc4476.fills,
   Rfc4490.fills,
   Rfc4491.fills,
   Rfc4683.fills,
   Rfc4985.fills,
   Rfc5035.fills,
   Rfc5083.fills,
   Rfc5084.fills,
   Rfc5126.fills,
   Rfc5208.fills,
   Rfc5275.fills,
   Rfc5280.fills,
   Rfc5480.fills,
   Rfc5636.fills,
   Rfc5639.fills,
   Rfc5649.fills,
   Rfc5652.fills,
   Rfc5697.fills,
   Rfc5751.fills,
   Rfc5752.fills,
   Rfc5753.fills,
   Rfc5755.fills,
   Rfc5913.fills,
   Rfc5914.fills,
   Rfc5915.fills,
   Rfc5916.fills,
   Rfc5917.fills,
   Rfc5924.fills,
   Rfc5934.fills,
   Rfc5940.fills,
   Rfc5958.fills,
   Rfc5990.fills,
   Rfc6010.fills,
   Rfc6019.fills,
   Rfc6031.fills,
   Rfc6032.fills,
   Rfc6120.fills,
   Rfc6170.fills,
   Rfc6187.fills,
   Rfc6210.fills,
   Rfc6211.fills,
   Rfc6402.fills,
   Rfc6482.fills,
   Rfc6486.fills,
   Rfc6487.fills,
   Rfc6664.fills,
   Rfc6955.fills,
   Rfc6960.fills,
   Rfc7030.fills,
   Rfc7191.fills,
   Rfc7229.fills,
   Rfc7292.fills,
   Rfc7296.fills,
   Rfc7508.fills,
   Rfc7585.fills,
   Rfc7633.fills,
   Rfc7773.fills,
   Rfc7894.fills,
   Rfc7906.fills,
   Rfc7914.fills,
   Rfc8017.fills,
   Rfc8018.fills,
   Rfc8103.fills,
   Rfc8209.fills,
   Rfc8226.fills,
   Rfc8358.fills,
   Rfc8360.fills,
   Rfc8398.fills,
   Rfc8410.fills,
   Rfc8418.fills,
   Rfc8419.fills,
   Rfc8479.fills,
   Rfc8494.fills,
   Rfc8520.fills,
   Rfc8619.fills,
   Rfc8649.fills,
   Rfc8692.fills,
   Rfc8696.fills,
   Rfc8702.fills,
   Rfc8708.fills,
   Rfc8769.fills]

end Verif
