import Verif.Py.Obj

/-! Transcription of /repo/pyasn1_modules/rfc3280.py (generated by tools/gen.py). -/

namespace Verif
namespace Rfc3280

/-- rfc3280.py:23 -/
def MAX : Py.Bound :=
  .inf

/-- rfc3280.py:26-34 `def _OID(*components)` -/
def _OID (components : List Py.OidArg) : Py.Obj :=
  match Py.oidLoop [] components with
  | some output => Py.univ.ObjectIdentifier.call.callArcs output
  | none => .fail "OID without value"

/-- rfc3280.py:37 -/
def unformatted_postal_address : Py.Obj :=
  (Py.univ.Integer.call.callInt 16)

/-- rfc3280.py:39 -/
def ub_organizational_units : Py.Obj :=
  (Py.univ.Integer.call.callInt 4)

/-- rfc3280.py:41 -/
def ub_organizational_unit_name_length : Py.Obj :=
  (Py.univ.Integer.call.callInt 32)

/-- rfc3280.py:44-45 `class OrganizationalUnitName(char.PrintableString)` -/
def OrganizationalUnitName__0 : Py.Obj :=
  Py.char.PrintableString

/-- rfc3280.py:48 `OrganizationalUnitName.subtypeSpec = ...` -/
def OrganizationalUnitName : Py.Obj :=
  Rfc3280.OrganizationalUnitName__0.setSubtypeSpec (Py.ValueSizeConstraint (.fin 1) Rfc3280.ub_organizational_unit_name_length.bound)

/-- rfc3280.py:51-52 `class OrganizationalUnitNames(univ.SequenceOf)` -/
def OrganizationalUnitNames__0 : Py.Obj :=
  Py.univ.SequenceOf

/-- rfc3280.py:55 `OrganizationalUnitNames.componentType = ...` -/
def OrganizationalUnitNames__1 : Py.Obj :=
  Rfc3280.OrganizationalUnitNames__0.setComponentTypeOf Rfc3280.OrganizationalUnitName.call

/-- rfc3280.py:56 `OrganizationalUnitNames.sizeSpec = ...` -/
def OrganizationalUnitNames : Py.Obj :=
  Rfc3280.OrganizationalUnitNames__1.setSizeSpec (Py.ValueSizeConstraint (.fin 1) Rfc3280.ub_organizational_units.bound)

/-- rfc3280.py:59-60 `class AttributeType(univ.ObjectIdentifier)` -/
def AttributeType : Py.Obj :=
  Py.univ.ObjectIdentifier

/-- rfc3280.py:63 -/
def id_at : Py.Obj :=
  (Rfc3280._OID [.num 2, .num 5, .num 4])

/-- rfc3280.py:65 -/
def id_at_name : Py.Obj :=
  (Rfc3280._OID [.oid Rfc3280.id_at, .num 41])

/-- rfc3280.py:67 -/
def ub_pds_parameter_length : Py.Obj :=
  (Py.univ.Integer.call.callInt 30)

/-- rfc3280.py:70-71 `class PDSParameter(univ.Set)` -/
def PDSParameter__0 : Py.Obj :=
  Py.univ.Set

/-- rfc3280.py:74-79 `PDSParameter.componentType = ...` -/
def PDSParameter : Py.Obj :=
  Rfc3280.PDSParameter__0.setComponentType (Py.NamedTypes [
    Py.OptionalNamedType "printable-string" (Py.char.PrintableString.call.addSubtypeSpec (Py.ValueSizeConstraint (.fin 1) Rfc3280.ub_pds_parameter_length.bound)),
    Py.OptionalNamedType "teletex-string" (Py.char.TeletexString.call.addSubtypeSpec (Py.ValueSizeConstraint (.fin 1) Rfc3280.ub_pds_parameter_length.bound))])

/-- rfc3280.py:82-83 `class PhysicalDeliveryOrganizationName(PDSParameter)` -/
def PhysicalDeliveryOrganizationName : Py.Obj :=
  Rfc3280.PDSParameter

/-- rfc3280.py:86 -/
def ub_organization_name_length : Py.Obj :=
  (Py.univ.Integer.call.callInt 64)

/-- rfc3280.py:88 -/
def ub_domain_defined_attribute_type_length : Py.Obj :=
  (Py.univ.Integer.call.callInt 8)

/-- rfc3280.py:90 -/
def ub_domain_defined_attribute_value_length : Py.Obj :=
  (Py.univ.Integer.call.callInt 128)

/-- rfc3280.py:93-94 `class TeletexDomainDefinedAttribute(univ.Sequence)` -/
def TeletexDomainDefinedAttribute__0 : Py.Obj :=
  Py.univ.Sequence

/-- rfc3280.py:97-102 `TeletexDomainDefinedAttribute.componentType = ...` -/
def TeletexDomainDefinedAttribute : Py.Obj :=
  Rfc3280.TeletexDomainDefinedAttribute__0.setComponentType (Py.NamedTypes [
    Py.NamedType "type" (Py.char.TeletexString.call.addSubtypeSpec (Py.ValueSizeConstraint (.fin 1) Rfc3280.ub_domain_defined_attribute_type_length.bound)),
    Py.NamedType "value" (Py.char.TeletexString.call.addSubtypeSpec (Py.ValueSizeConstraint (.fin 1) Rfc3280.ub_domain_defined_attribute_value_length.bound))])

/-- rfc3280.py:104 -/
def id_pkix : Py.Obj :=
  (Rfc3280._OID [.num 1, .num 3, .num 6, .num 1, .num 5, .num 5, .num 7])

/-- rfc3280.py:106 -/
def id_qt : Py.Obj :=
  (Rfc3280._OID [.oid Rfc3280.id_pkix, .num 2])

/-- rfc3280.py:109-110 `class PresentationAddress(univ.Sequence)` -/
def PresentationAddress__0 : Py.Obj :=
  Py.univ.Sequence

/-- rfc3280.py:113-122 `PresentationAddress.componentType = ...` -/
def PresentationAddress : Py.Obj :=
  Rfc3280.PresentationAddress__0.setComponentType (Py.NamedTypes [
    Py.OptionalNamedType "pSelector" (Py.univ.OctetString.call.explicitTag (Py.Tag .context false 0)),
    Py.OptionalNamedType "sSelector" (Py.univ.OctetString.call.explicitTag (Py.Tag .context false 1)),
    Py.OptionalNamedType "tSelector" (Py.univ.OctetString.call.explicitTag (Py.Tag .context false 2)),
    Py.NamedType "nAddresses" ((Py.univ.SetOf.call.setComponentTypeOf Py.univ.OctetString.call).explicitTag (Py.Tag .context false 3))])

/-- rfc3280.py:125-126 `class AlgorithmIdentifier(univ.Sequence)` -/
def AlgorithmIdentifier__0 : Py.Obj :=
  Py.univ.Sequence

/-- rfc3280.py:129-132 `AlgorithmIdentifier.componentType = ...` -/
def AlgorithmIdentifier : Py.Obj :=
  Rfc3280.AlgorithmIdentifier__0.setComponentType (Py.NamedTypes [
    Py.NamedType "algorithm" Py.univ.ObjectIdentifier.call,
    Py.OptionalNamedType "parameters" Py.univ.Any.call])

/-- rfc3280.py:135-136 `class UniqueIdentifier(univ.BitString)` -/
def UniqueIdentifier : Py.Obj :=
  Py.univ.BitString

/-- rfc3280.py:139-140 `class Extension(univ.Sequence)` -/
def Extension__0 : Py.Obj :=
  Py.univ.Sequence

/-- rfc3280.py:143-147 `Extension.componentType = ...` -/
def Extension : Py.Obj :=
  Rfc3280.Extension__0.setComponentType (Py.NamedTypes [
    Py.NamedType "extnID" Py.univ.ObjectIdentifier.call,
    Py.DefaultedNamedType "critical" (Py.univ.Boolean.call.callInt 0),
    Py.NamedType "extnValue" Py.univ.OctetString.call])

/-- rfc3280.py:150-151 `class Extensions(univ.SequenceOf)` -/
def Extensions__0 : Py.Obj :=
  Py.univ.SequenceOf

/-- rfc3280.py:154 `Extensions.componentType = ...` -/
def Extensions__1 : Py.Obj :=
  Rfc3280.Extensions__0.setComponentTypeOf Rfc3280.Extension.call

/-- rfc3280.py:155 `Extensions.sizeSpec = ...` -/
def Extensions : Py.Obj :=
  Rfc3280.Extensions__1.setSizeSpec (Py.ValueSizeConstraint (.fin 1) Rfc3280.MAX)

/-- rfc3280.py:158-159 `class CertificateSerialNumber(univ.Integer)` -/
def CertificateSerialNumber : Py.Obj :=
  Py.univ.Integer

/-- rfc3280.py:162-163 `class SubjectPublicKeyInfo(univ.Sequence)` -/
def SubjectPublicKeyInfo__0 : Py.Obj :=
  Py.univ.Sequence

/-- rfc3280.py:166-169 `SubjectPublicKeyInfo.componentType = ...` -/
def SubjectPublicKeyInfo : Py.Obj :=
  Rfc3280.SubjectPublicKeyInfo__0.setComponentType (Py.NamedTypes [
    Py.NamedType "algorithm" Rfc3280.AlgorithmIdentifier.call,
    Py.NamedType "subjectPublicKey" Py.univ.BitString.call])

/-- rfc3280.py:172-173 `class Time(univ.Choice)` -/
def Time__0 : Py.Obj :=
  Py.univ.Choice

/-- rfc3280.py:176-179 `Time.componentType = ...` -/
def Time : Py.Obj :=
  Rfc3280.Time__0.setComponentType (Py.NamedTypes [
    Py.NamedType "utcTime" Py.useful.UTCTime.call,
    Py.NamedType "generalTime" Py.useful.GeneralizedTime.call])

/-- rfc3280.py:182-183 `class Validity(univ.Sequence)` -/
def Validity__0 : Py.Obj :=
  Py.univ.Sequence

/-- rfc3280.py:186-189 `Validity.componentType = ...` -/
def Validity : Py.Obj :=
  Rfc3280.Validity__0.setComponentType (Py.NamedTypes [
    Py.NamedType "notBefore" Rfc3280.Time.call,
    Py.NamedType "notAfter" Rfc3280.Time.call])

/-- rfc3280.py:192-193 `class Version(univ.Integer)` -/
def Version__0 : Py.Obj :=
  Py.univ.Integer

/-- rfc3280.py:196-200 `Version.namedValues = ...` -/
def Version : Py.Obj :=
  Rfc3280.Version__0.setNamedValues (Py.NamedValues [("v1", 0), ("v2", 1), ("v3", 2)])

/-- rfc3280.py:203-204 `class AttributeValue(univ.Any)` -/
def AttributeValue : Py.Obj :=
  Py.univ.Any

/-- rfc3280.py:207-208 `class AttributeTypeAndValue(univ.Sequence)` -/
def AttributeTypeAndValue__0 : Py.Obj :=
  Py.univ.Sequence

/-- rfc3280.py:211-214 `AttributeTypeAndValue.componentType = ...` -/
def AttributeTypeAndValue : Py.Obj :=
  Rfc3280.AttributeTypeAndValue__0.setComponentType (Py.NamedTypes [
    Py.NamedType "type" Rfc3280.AttributeType.call,
    Py.NamedType "value" Rfc3280.AttributeValue.call])

/-- rfc3280.py:217-218 `class RelativeDistinguishedName(univ.SetOf)` -/
def RelativeDistinguishedName__0 : Py.Obj :=
  Py.univ.SetOf

/-- rfc3280.py:221 `RelativeDistinguishedName.componentType = ...` -/
def RelativeDistinguishedName__1 : Py.Obj :=
  Rfc3280.RelativeDistinguishedName__0.setComponentTypeOf Rfc3280.AttributeTypeAndValue.call

/-- rfc3280.py:222 `RelativeDistinguishedName.sizeSpec = ...` -/
def RelativeDistinguishedName : Py.Obj :=
  Rfc3280.RelativeDistinguishedName__1.setSizeSpec (Py.ValueSizeConstraint (.fin 1) Rfc3280.MAX)

/-- rfc3280.py:225-226 `class RDNSequence(univ.SequenceOf)` -/
def RDNSequence__0 : Py.Obj :=
  Py.univ.SequenceOf

/-- rfc3280.py:229 `RDNSequence.componentType = ...` -/
def RDNSequence : Py.Obj :=
  Rfc3280.RDNSequence__0.setComponentTypeOf Rfc3280.RelativeDistinguishedName.call

/-- rfc3280.py:232-233 `class Name(univ.Choice)` -/
def Name__0 : Py.Obj :=
  Py.univ.Choice

/-- rfc3280.py:236-238 `Name.componentType = ...` -/
def Name : Py.Obj :=
  Rfc3280.Name__0.setComponentType (Py.NamedTypes [
    Py.NamedType "rdnSequence" Rfc3280.RDNSequence.call])

/-- rfc3280.py:241-242 `class TBSCertificate(univ.Sequence)` -/
def TBSCertificate__0 : Py.Obj :=
  Py.univ.Sequence

/-- rfc3280.py:245-261 `TBSCertificate.componentType = ...` -/
def TBSCertificate : Py.Obj :=
  Rfc3280.TBSCertificate__0.setComponentType (Py.NamedTypes [
    Py.DefaultedNamedType "version" ((Rfc3280.Version.call.explicitTag (Py.Tag .context false 0)).callStr "v1"),
    Py.NamedType "serialNumber" Rfc3280.CertificateSerialNumber.call,
    Py.NamedType "signature" Rfc3280.AlgorithmIdentifier.call,
    Py.NamedType "issuer" Rfc3280.Name.call,
    Py.NamedType "validity" Rfc3280.Validity.call,
    Py.NamedType "subject" Rfc3280.Name.call,
    Py.NamedType "subjectPublicKeyInfo" Rfc3280.SubjectPublicKeyInfo.call,
    Py.OptionalNamedType "issuerUniqueID" (Rfc3280.UniqueIdentifier.call.implicitTag (Py.Tag .context false 1)),
    Py.OptionalNamedType "subjectUniqueID" (Rfc3280.UniqueIdentifier.call.implicitTag (Py.Tag .context false 2)),
    Py.OptionalNamedType "extensions" (Rfc3280.Extensions.call.explicitTag (Py.Tag .context false 3))])

/-- rfc3280.py:264-265 `class Certificate(univ.Sequence)` -/
def Certificate__0 : Py.Obj :=
  Py.univ.Sequence

/-- rfc3280.py:268-272 `Certificate.componentType = ...` -/
def Certificate : Py.Obj :=
  Rfc3280.Certificate__0.setComponentType (Py.NamedTypes [
    Py.NamedType "tbsCertificate" Rfc3280.TBSCertificate.call,
    Py.NamedType "signatureAlgorithm" Rfc3280.AlgorithmIdentifier.call,
    Py.NamedType "signature" Py.univ.BitString.call])

/-- rfc3280.py:274 -/
def ub_surname_length : Py.Obj :=
  (Py.univ.Integer.call.callInt 40)

/-- rfc3280.py:277-278 `class TeletexOrganizationName(char.TeletexString)` -/
def TeletexOrganizationName__0 : Py.Obj :=
  Py.char.TeletexString

/-- rfc3280.py:281 `TeletexOrganizationName.subtypeSpec = ...` -/
def TeletexOrganizationName : Py.Obj :=
  Rfc3280.TeletexOrganizationName__0.setSubtypeSpec (Py.ValueSizeConstraint (.fin 1) Rfc3280.ub_organization_name_length.bound)

/-- rfc3280.py:283 -/
def ub_e163_4_sub_address_length : Py.Obj :=
  (Py.univ.Integer.call.callInt 40)

/-- rfc3280.py:285 -/
def teletex_common_name : Py.Obj :=
  (Py.univ.Integer.call.callInt 2)

/-- rfc3280.py:287 -/
def ub_country_name_alpha_length : Py.Obj :=
  (Py.univ.Integer.call.callInt 2)

/-- rfc3280.py:289 -/
def ub_country_name_numeric_length : Py.Obj :=
  (Py.univ.Integer.call.callInt 3)

/-- rfc3280.py:292-293 `class CountryName(univ.Choice)` -/
def CountryName__0 : Py.Obj :=
  Py.univ.Choice

/-- rfc3280.py:296 `CountryName.tagSet = ...` -/
def CountryName__1 : Py.Obj :=
  Rfc3280.CountryName__0.setTagSet (Py.univ.Choice.tagSet.tagExplicitly (Py.Tag .application true 1))

/-- rfc3280.py:297-302 `CountryName.componentType = ...` -/
def CountryName : Py.Obj :=
  Rfc3280.CountryName__1.setComponentType (Py.NamedTypes [
    Py.NamedType "x121-dcc-code" (Py.char.NumericString.call.addSubtypeSpec (Py.ValueSizeConstraint Rfc3280.ub_country_name_numeric_length.bound Rfc3280.ub_country_name_numeric_length.bound)),
    Py.NamedType "iso-3166-alpha2-code" (Py.char.PrintableString.call.addSubtypeSpec (Py.ValueSizeConstraint Rfc3280.ub_country_name_alpha_length.bound Rfc3280.ub_country_name_alpha_length.bound))])

/-- rfc3280.py:304 -/
def extension_OR_address_components : Py.Obj :=
  (Py.univ.Integer.call.callInt 12)

/-- rfc3280.py:306 -/
def id_at_dnQualifier : Py.Obj :=
  (Rfc3280._OID [.oid Rfc3280.id_at, .num 46])

/-- rfc3280.py:308 -/
def ub_e163_4_number_length : Py.Obj :=
  (Py.univ.Integer.call.callInt 15)

/-- rfc3280.py:311-312 `class ExtendedNetworkAddress(univ.Choice)` -/
def ExtendedNetworkAddress__0 : Py.Obj :=
  Py.univ.Choice

/-- rfc3280.py:315-327 `ExtendedNetworkAddress.componentType = ...` -/
def ExtendedNetworkAddress : Py.Obj :=
  Rfc3280.ExtendedNetworkAddress__0.setComponentType (Py.NamedTypes [
    Py.NamedType "e163-4-address" (Py.univ.Sequence.call.setComponentType (Py.NamedTypes [
    Py.NamedType "number" ((Py.char.NumericString.call.addSubtypeSpec (Py.ValueSizeConstraint (.fin 1) Rfc3280.ub_e163_4_number_length.bound)).implicitTag (Py.Tag .context false 0)),
    Py.OptionalNamedType "sub-address" ((Py.char.NumericString.call.addSubtypeSpec (Py.ValueSizeConstraint (.fin 1) Rfc3280.ub_e163_4_sub_address_length.bound)).implicitTag (Py.Tag .context false 1))])),
    Py.NamedType "psap-address" (Rfc3280.PresentationAddress.call.implicitTag (Py.Tag .context true 0))])

/-- rfc3280.py:329 -/
def terminal_type : Py.Obj :=
  (Py.univ.Integer.call.callInt 23)

/-- rfc3280.py:331 -/
def id_domainComponent : Py.Obj :=
  (Rfc3280._OID [.num 0, .num 9, .num 2342, .num 19200300, .num 100, .num 1, .num 25])

/-- rfc3280.py:333 -/
def ub_state_name : Py.Obj :=
  (Py.univ.Integer.call.callInt 128)

/-- rfc3280.py:336-337 `class X520StateOrProvinceName(univ.Choice)` -/
def X520StateOrProvinceName__0 : Py.Obj :=
  Py.univ.Choice

/-- rfc3280.py:340-351 `X520StateOrProvinceName.componentType = ...` -/
def X520StateOrProvinceName : Py.Obj :=
  Rfc3280.X520StateOrProvinceName__0.setComponentType (Py.NamedTypes [
    Py.NamedType "teletexString" (Py.char.TeletexString.call.addSubtypeSpec (Py.ValueSizeConstraint (.fin 1) Rfc3280.ub_state_name.bound)),
    Py.NamedType "printableString" (Py.char.PrintableString.call.addSubtypeSpec (Py.ValueSizeConstraint (.fin 1) Rfc3280.ub_state_name.bound)),
    Py.NamedType "universalString" (Py.char.UniversalString.call.addSubtypeSpec (Py.ValueSizeConstraint (.fin 1) Rfc3280.ub_state_name.bound)),
    Py.NamedType "utf8String" (Py.char.UTF8String.call.addSubtypeSpec (Py.ValueSizeConstraint (.fin 1) Rfc3280.ub_state_name.bound)),
    Py.NamedType "bmpString" (Py.char.BMPString.call.addSubtypeSpec (Py.ValueSizeConstraint (.fin 1) Rfc3280.ub_state_name.bound))])

/-- rfc3280.py:353 -/
def ub_organization_name : Py.Obj :=
  (Py.univ.Integer.call.callInt 64)

/-- rfc3280.py:356-357 `class X520OrganizationName(univ.Choice)` -/
def X520OrganizationName__0 : Py.Obj :=
  Py.univ.Choice

/-- rfc3280.py:360-371 `X520OrganizationName.componentType = ...` -/
def X520OrganizationName : Py.Obj :=
  Rfc3280.X520OrganizationName__0.setComponentType (Py.NamedTypes [
    Py.NamedType "teletexString" (Py.char.TeletexString.call.addSubtypeSpec (Py.ValueSizeConstraint (.fin 1) Rfc3280.ub_organization_name.bound)),
    Py.NamedType "printableString" (Py.char.PrintableString.call.addSubtypeSpec (Py.ValueSizeConstraint (.fin 1) Rfc3280.ub_organization_name.bound)),
    Py.NamedType "universalString" (Py.char.UniversalString.call.addSubtypeSpec (Py.ValueSizeConstraint (.fin 1) Rfc3280.ub_organization_name.bound)),
    Py.NamedType "utf8String" (Py.char.UTF8String.call.addSubtypeSpec (Py.ValueSizeConstraint (.fin 1) Rfc3280.ub_organization_name.bound)),
    Py.NamedType "bmpString" (Py.char.BMPString.call.addSubtypeSpec (Py.ValueSizeConstraint (.fin 1) Rfc3280.ub_organization_name.bound))])

/-- rfc3280.py:373 -/
def ub_emailaddress_length : Py.Obj :=
  (Py.univ.Integer.call.callInt 128)

/-- rfc3280.py:376-377 `class ExtensionPhysicalDeliveryAddressComponents(PDSParameter)` -/
def ExtensionPhysicalDeliveryAddressComponents : Py.Obj :=
  Rfc3280.PDSParameter

/-- rfc3280.py:380 -/
def id_at_surname : Py.Obj :=
  (Rfc3280._OID [.oid Rfc3280.id_at, .num 4])

/-- rfc3280.py:382 -/
def ub_common_name_length : Py.Obj :=
  (Py.univ.Integer.call.callInt 64)

/-- rfc3280.py:384 -/
def id_ad : Py.Obj :=
  (Rfc3280._OID [.oid Rfc3280.id_pkix, .num 48])

/-- rfc3280.py:386 -/
def ub_numeric_user_id_length : Py.Obj :=
  (Py.univ.Integer.call.callInt 32)

/-- rfc3280.py:389-390 `class NumericUserIdentifier(char.NumericString)` -/
def NumericUserIdentifier__0 : Py.Obj :=
  Py.char.NumericString

/-- rfc3280.py:393 `NumericUserIdentifier.subtypeSpec = ...` -/
def NumericUserIdentifier : Py.Obj :=
  Rfc3280.NumericUserIdentifier__0.setSubtypeSpec (Py.ValueSizeConstraint (.fin 1) Rfc3280.ub_numeric_user_id_length.bound)

/-- rfc3280.py:396-397 `class OrganizationName(char.PrintableString)` -/
def OrganizationName__0 : Py.Obj :=
  Py.char.PrintableString

/-- rfc3280.py:400 `OrganizationName.subtypeSpec = ...` -/
def OrganizationName : Py.Obj :=
  Rfc3280.OrganizationName__0.setSubtypeSpec (Py.ValueSizeConstraint (.fin 1) Rfc3280.ub_organization_name_length.bound)

/-- rfc3280.py:402 -/
def ub_domain_name_length : Py.Obj :=
  (Py.univ.Integer.call.callInt 16)

/-- rfc3280.py:405-406 `class AdministrationDomainName(univ.Choice)` -/
def AdministrationDomainName__0 : Py.Obj :=
  Py.univ.Choice

/-- rfc3280.py:409-410 `AdministrationDomainName.tagSet = ...` -/
def AdministrationDomainName__1 : Py.Obj :=
  Rfc3280.AdministrationDomainName__0.setTagSet (Py.univ.Choice.tagSet.tagExplicitly (Py.Tag .application true 2))

/-- rfc3280.py:411-416 `AdministrationDomainName.componentType = ...` -/
def AdministrationDomainName : Py.Obj :=
  Rfc3280.AdministrationDomainName__1.setComponentType (Py.NamedTypes [
    Py.NamedType "numeric" (Py.char.NumericString.call.addSubtypeSpec (Py.ValueSizeConstraint (.fin 0) Rfc3280.ub_domain_name_length.bound)),
    Py.NamedType "printable" (Py.char.PrintableString.call.addSubtypeSpec (Py.ValueSizeConstraint (.fin 0) Rfc3280.ub_domain_name_length.bound))])

/-- rfc3280.py:419-420 `class PrivateDomainName(univ.Choice)` -/
def PrivateDomainName__0 : Py.Obj :=
  Py.univ.Choice

/-- rfc3280.py:423-428 `PrivateDomainName.componentType = ...` -/
def PrivateDomainName : Py.Obj :=
  Rfc3280.PrivateDomainName__0.setComponentType (Py.NamedTypes [
    Py.NamedType "numeric" (Py.char.NumericString.call.addSubtypeSpec (Py.ValueSizeConstraint (.fin 1) Rfc3280.ub_domain_name_length.bound)),
    Py.NamedType "printable" (Py.char.PrintableString.call.addSubtypeSpec (Py.ValueSizeConstraint (.fin 1) Rfc3280.ub_domain_name_length.bound))])

/-- rfc3280.py:430 -/
def ub_generation_qualifier_length : Py.Obj :=
  (Py.univ.Integer.call.callInt 3)

/-- rfc3280.py:432 -/
def ub_given_name_length : Py.Obj :=
  (Py.univ.Integer.call.callInt 16)

/-- rfc3280.py:434 -/
def ub_initials_length : Py.Obj :=
  (Py.univ.Integer.call.callInt 5)

/-- rfc3280.py:437-438 `class PersonalName(univ.Set)` -/
def PersonalName__0 : Py.Obj :=
  Py.univ.Set

/-- rfc3280.py:441-454 `PersonalName.componentType = ...` -/
def PersonalName : Py.Obj :=
  Rfc3280.PersonalName__0.setComponentType (Py.NamedTypes [
    Py.NamedType "surname" ((Py.char.PrintableString.call.addSubtypeSpec (Py.ValueSizeConstraint (.fin 1) Rfc3280.ub_surname_length.bound)).implicitTag (Py.Tag .context false 0)),
    Py.OptionalNamedType "given-name" ((Py.char.PrintableString.call.addSubtypeSpec (Py.ValueSizeConstraint (.fin 1) Rfc3280.ub_given_name_length.bound)).implicitTag (Py.Tag .context false 1)),
    Py.OptionalNamedType "initials" ((Py.char.PrintableString.call.addSubtypeSpec (Py.ValueSizeConstraint (.fin 1) Rfc3280.ub_initials_length.bound)).implicitTag (Py.Tag .context false 2)),
    Py.OptionalNamedType "generation-qualifier" ((Py.char.PrintableString.call.addSubtypeSpec (Py.ValueSizeConstraint (.fin 1) Rfc3280.ub_generation_qualifier_length.bound)).implicitTag (Py.Tag .context false 3))])

/-- rfc3280.py:456 -/
def ub_terminal_id_length : Py.Obj :=
  (Py.univ.Integer.call.callInt 24)

/-- rfc3280.py:459-460 `class TerminalIdentifier(char.PrintableString)` -/
def TerminalIdentifier__0 : Py.Obj :=
  Py.char.PrintableString

/-- rfc3280.py:463 `TerminalIdentifier.subtypeSpec = ...` -/
def TerminalIdentifier : Py.Obj :=
  Rfc3280.TerminalIdentifier__0.setSubtypeSpec (Py.ValueSizeConstraint (.fin 1) Rfc3280.ub_terminal_id_length.bound)

/-- rfc3280.py:465 -/
def ub_x121_address_length : Py.Obj :=
  (Py.univ.Integer.call.callInt 16)

/-- rfc3280.py:468-469 `class X121Address(char.NumericString)` -/
def X121Address__0 : Py.Obj :=
  Py.char.NumericString

/-- rfc3280.py:472 `X121Address.subtypeSpec = ...` -/
def X121Address : Py.Obj :=
  Rfc3280.X121Address__0.setSubtypeSpec (Py.ValueSizeConstraint (.fin 1) Rfc3280.ub_x121_address_length.bound)

/-- rfc3280.py:475-476 `class NetworkAddress(X121Address)` -/
def NetworkAddress : Py.Obj :=
  Rfc3280.X121Address

/-- rfc3280.py:479-480 `class BuiltInStandardAttributes(univ.Sequence)` -/
def BuiltInStandardAttributes__0 : Py.Obj :=
  Py.univ.Sequence

/-- rfc3280.py:483-500 `BuiltInStandardAttributes.componentType = ...` -/
def BuiltInStandardAttributes : Py.Obj :=
  Rfc3280.BuiltInStandardAttributes__0.setComponentType (Py.NamedTypes [
    Py.OptionalNamedType "country-name" Rfc3280.CountryName.call,
    Py.OptionalNamedType "administration-domain-name" Rfc3280.AdministrationDomainName.call,
    Py.OptionalNamedType "network-address" (Rfc3280.NetworkAddress.call.implicitTag (Py.Tag .context false 0)),
    Py.OptionalNamedType "terminal-identifier" (Rfc3280.TerminalIdentifier.call.implicitTag (Py.Tag .context false 1)),
    Py.OptionalNamedType "private-domain-name" (Rfc3280.PrivateDomainName.call.explicitTag (Py.Tag .context true 2)),
    Py.OptionalNamedType "organization-name" (Rfc3280.OrganizationName.call.implicitTag (Py.Tag .context false 3)),
    Py.OptionalNamedType "numeric-user-identifier" (Rfc3280.NumericUserIdentifier.call.implicitTag (Py.Tag .context false 4)),
    Py.OptionalNamedType "personal-name" (Rfc3280.PersonalName.call.implicitTag (Py.Tag .context true 5)),
    Py.OptionalNamedType "organizational-unit-names" (Rfc3280.OrganizationalUnitNames.call.implicitTag (Py.Tag .context false 6))])

/-- rfc3280.py:502 -/
def ub_domain_defined_attributes : Py.Obj :=
  (Py.univ.Integer.call.callInt 4)

/-- rfc3280.py:505-506 `class BuiltInDomainDefinedAttribute(univ.Sequence)` -/
def BuiltInDomainDefinedAttribute__0 : Py.Obj :=
  Py.univ.Sequence

/-- rfc3280.py:509-514 `BuiltInDomainDefinedAttribute.componentType = ...` -/
def BuiltInDomainDefinedAttribute : Py.Obj :=
  Rfc3280.BuiltInDomainDefinedAttribute__0.setComponentType (Py.NamedTypes [
    Py.NamedType "type" (Py.char.PrintableString.call.addSubtypeSpec (Py.ValueSizeConstraint (.fin 1) Rfc3280.ub_domain_defined_attribute_type_length.bound)),
    Py.NamedType "value" (Py.char.PrintableString.call.addSubtypeSpec (Py.ValueSizeConstraint (.fin 1) Rfc3280.ub_domain_defined_attribute_value_length.bound))])

/-- rfc3280.py:517-518 `class BuiltInDomainDefinedAttributes(univ.SequenceOf)` -/
def BuiltInDomainDefinedAttributes__0 : Py.Obj :=
  Py.univ.SequenceOf

/-- rfc3280.py:521 `BuiltInDomainDefinedAttributes.componentType = ...` -/
def BuiltInDomainDefinedAttributes__1 : Py.Obj :=
  Rfc3280.BuiltInDomainDefinedAttributes__0.setComponentTypeOf Rfc3280.BuiltInDomainDefinedAttribute.call

/-- rfc3280.py:522 `BuiltInDomainDefinedAttributes.sizeSpec = ...` -/
def BuiltInDomainDefinedAttributes : Py.Obj :=
  Rfc3280.BuiltInDomainDefinedAttributes__1.setSizeSpec (Py.ValueSizeConstraint (.fin 1) Rfc3280.ub_domain_defined_attributes.bound)

/-- rfc3280.py:524 -/
def ub_extension_attributes : Py.Obj :=
  (Py.univ.Integer.call.callInt 256)

/-- rfc3280.py:527-528 `class ExtensionAttribute(univ.Sequence)` -/
def ExtensionAttribute__0 : Py.Obj :=
  Py.univ.Sequence

/-- rfc3280.py:531-537 `ExtensionAttribute.componentType = ...` -/
def ExtensionAttribute : Py.Obj :=
  Rfc3280.ExtensionAttribute__0.setComponentType (Py.NamedTypes [
    Py.NamedType "extension-attribute-type" ((Py.univ.Integer.call.addSubtypeSpec (Py.ValueRangeConstraint (.fin 0) Rfc3280.ub_extension_attributes.bound)).implicitTag (Py.Tag .context false 0)),
    Py.NamedType "extension-attribute-value" (Py.univ.Any.call.explicitTag (Py.Tag .context false 1))])

/-- rfc3280.py:540-541 `class ExtensionAttributes(univ.SetOf)` -/
def ExtensionAttributes__0 : Py.Obj :=
  Py.univ.SetOf

/-- rfc3280.py:544 `ExtensionAttributes.componentType = ...` -/
def ExtensionAttributes__1 : Py.Obj :=
  Rfc3280.ExtensionAttributes__0.setComponentTypeOf Rfc3280.ExtensionAttribute.call

/-- rfc3280.py:545 `ExtensionAttributes.sizeSpec = ...` -/
def ExtensionAttributes : Py.Obj :=
  Rfc3280.ExtensionAttributes__1.setSizeSpec (Py.ValueSizeConstraint (.fin 1) Rfc3280.ub_extension_attributes.bound)

/-- rfc3280.py:548-549 `class ORAddress(univ.Sequence)` -/
def ORAddress__0 : Py.Obj :=
  Py.univ.Sequence

/-- rfc3280.py:552-556 `ORAddress.componentType = ...` -/
def ORAddress : Py.Obj :=
  Rfc3280.ORAddress__0.setComponentType (Py.NamedTypes [
    Py.NamedType "built-in-standard-attributes" Rfc3280.BuiltInStandardAttributes.call,
    Py.OptionalNamedType "built-in-domain-defined-attributes" Rfc3280.BuiltInDomainDefinedAttributes.call,
    Py.OptionalNamedType "extension-attributes" Rfc3280.ExtensionAttributes.call])

/-- rfc3280.py:558 -/
def id_pe : Py.Obj :=
  (Rfc3280._OID [.oid Rfc3280.id_pkix, .num 1])

/-- rfc3280.py:560 -/
def ub_title : Py.Obj :=
  (Py.univ.Integer.call.callInt 64)

/-- rfc3280.py:563-564 `class X520Title(univ.Choice)` -/
def X520Title__0 : Py.Obj :=
  Py.univ.Choice

/-- rfc3280.py:567-577 `X520Title.componentType = ...` -/
def X520Title : Py.Obj :=
  Rfc3280.X520Title__0.setComponentType (Py.NamedTypes [
    Py.NamedType "teletexString" (Py.char.TeletexString.call.addSubtypeSpec (Py.ValueSizeConstraint (.fin 1) Rfc3280.ub_title.bound)),
    Py.NamedType "printableString" (Py.char.PrintableString.call.addSubtypeSpec (Py.ValueSizeConstraint (.fin 1) Rfc3280.ub_title.bound)),
    Py.NamedType "universalString" (Py.char.UniversalString.call.addSubtypeSpec (Py.ValueSizeConstraint (.fin 1) Rfc3280.ub_title.bound)),
    Py.NamedType "utf8String" (Py.char.UTF8String.call.addSubtypeSpec (Py.ValueSizeConstraint (.fin 1) Rfc3280.ub_title.bound)),
    Py.NamedType "bmpString" (Py.char.BMPString.call.addSubtypeSpec (Py.ValueSizeConstraint (.fin 1) Rfc3280.ub_title.bound))])

/-- rfc3280.py:579 -/
def id_at_organizationalUnitName : Py.Obj :=
  (Rfc3280._OID [.oid Rfc3280.id_at, .num 11])

/-- rfc3280.py:582-583 `class EmailAddress(char.IA5String)` -/
def EmailAddress__0 : Py.Obj :=
  Py.char.IA5String

/-- rfc3280.py:586 `EmailAddress.subtypeSpec = ...` -/
def EmailAddress : Py.Obj :=
  Rfc3280.EmailAddress__0.setSubtypeSpec (Py.ValueSizeConstraint (.fin 1) Rfc3280.ub_emailaddress_length.bound)

/-- rfc3280.py:588 -/
def physical_delivery_country_name : Py.Obj :=
  (Py.univ.Integer.call.callInt 8)

/-- rfc3280.py:590 -/
def id_at_givenName : Py.Obj :=
  (Rfc3280._OID [.oid Rfc3280.id_at, .num 42])

/-- rfc3280.py:593-594 `class TeletexCommonName(char.TeletexString)` -/
def TeletexCommonName__0 : Py.Obj :=
  Py.char.TeletexString

/-- rfc3280.py:597 `TeletexCommonName.subtypeSpec = ...` -/
def TeletexCommonName : Py.Obj :=
  Rfc3280.TeletexCommonName__0.setSubtypeSpec (Py.ValueSizeConstraint (.fin 1) Rfc3280.ub_common_name_length.bound)

/-- rfc3280.py:599 -/
def id_qt_cps : Py.Obj :=
  (Rfc3280._OID [.oid Rfc3280.id_qt, .num 1])

/-- rfc3280.py:602-603 `class LocalPostalAttributes(PDSParameter)` -/
def LocalPostalAttributes : Py.Obj :=
  Rfc3280.PDSParameter

/-- rfc3280.py:606-607 `class StreetAddress(PDSParameter)` -/
def StreetAddress : Py.Obj :=
  Rfc3280.PDSParameter

/-- rfc3280.py:610 -/
def id_kp : Py.Obj :=
  (Rfc3280._OID [.oid Rfc3280.id_pkix, .num 3])

/-- rfc3280.py:613-614 `class DirectoryString(univ.Choice)` -/
def DirectoryString__0 : Py.Obj :=
  Py.univ.Choice

/-- rfc3280.py:617-626 `DirectoryString.componentType = ...` -/
def DirectoryString__1 : Py.Obj :=
  Rfc3280.DirectoryString__0.setComponentType (Py.NamedTypes [
    Py.NamedType "teletexString" (Py.char.TeletexString.call.addSubtypeSpec (Py.ValueSizeConstraint (.fin 1) Rfc3280.MAX)),
    Py.NamedType "printableString" (Py.char.PrintableString.call.addSubtypeSpec (Py.ValueSizeConstraint (.fin 1) Rfc3280.MAX)),
    Py.NamedType "universalString" (Py.char.UniversalString.call.addSubtypeSpec (Py.ValueSizeConstraint (.fin 1) Rfc3280.MAX)),
    Py.NamedType "utf8String" (Py.char.UTF8String.call.addSubtypeSpec (Py.ValueSizeConstraint (.fin 1) Rfc3280.MAX)),
    Py.NamedType "bmpString" (Py.char.BMPString.call.addSubtypeSpec (Py.ValueSizeConstraint (.fin 1) Rfc3280.MAX))])

/-- rfc3280.py:629-630 `class DomainComponent(char.IA5String)` -/
def DomainComponent : Py.Obj :=
  Py.char.IA5String

/-- rfc3280.py:633 -/
def id_at_initials : Py.Obj :=
  (Rfc3280._OID [.oid Rfc3280.id_at, .num 43])

/-- rfc3280.py:635 -/
def id_qt_unotice : Py.Obj :=
  (Rfc3280._OID [.oid Rfc3280.id_qt, .num 2])

/-- rfc3280.py:637 -/
def ub_pds_name_length : Py.Obj :=
  (Py.univ.Integer.call.callInt 16)

/-- rfc3280.py:640-641 `class PDSName(char.PrintableString)` -/
def PDSName__0 : Py.Obj :=
  Py.char.PrintableString

/-- rfc3280.py:644 `PDSName.subtypeSpec = ...` -/
def PDSName : Py.Obj :=
  Rfc3280.PDSName__0.setSubtypeSpec (Py.ValueSizeConstraint (.fin 1) Rfc3280.ub_pds_name_length.bound)

/-- rfc3280.py:647-648 `class PosteRestanteAddress(PDSParameter)` -/
def PosteRestanteAddress : Py.Obj :=
  Rfc3280.PDSParameter

/-- rfc3280.py:651-652 `class DistinguishedName(RDNSequence)` -/
def DistinguishedName : Py.Obj :=
  Rfc3280.RDNSequence

/-- rfc3280.py:655-656 `class CommonName(char.PrintableString)` -/
def CommonName__0 : Py.Obj :=
  Py.char.PrintableString

/-- rfc3280.py:659 `CommonName.subtypeSpec = ...` -/
def CommonName : Py.Obj :=
  Rfc3280.CommonName__0.setSubtypeSpec (Py.ValueSizeConstraint (.fin 1) Rfc3280.ub_common_name_length.bound)

/-- rfc3280.py:661 -/
def ub_serial_number : Py.Obj :=
  (Py.univ.Integer.call.callInt 64)

/-- rfc3280.py:664-665 `class X520SerialNumber(char.PrintableString)` -/
def X520SerialNumber__0 : Py.Obj :=
  Py.char.PrintableString

/-- rfc3280.py:668 `X520SerialNumber.subtypeSpec = ...` -/
def X520SerialNumber : Py.Obj :=
  Rfc3280.X520SerialNumber__0.setSubtypeSpec (Py.ValueSizeConstraint (.fin 1) Rfc3280.ub_serial_number.bound)

/-- rfc3280.py:670 -/
def id_at_generationQualifier : Py.Obj :=
  (Rfc3280._OID [.oid Rfc3280.id_at, .num 44])

/-- rfc3280.py:672 -/
def ub_organizational_unit_name : Py.Obj :=
  (Py.univ.Integer.call.callInt 64)

/-- rfc3280.py:674 -/
def id_ad_ocsp : Py.Obj :=
  (Rfc3280._OID [.oid Rfc3280.id_ad, .num 1])

/-- rfc3280.py:677-678 `class TeletexOrganizationalUnitName(char.TeletexString)` -/
def TeletexOrganizationalUnitName__0 : Py.Obj :=
  Py.char.TeletexString

/-- rfc3280.py:681 `TeletexOrganizationalUnitName.subtypeSpec = ...` -/
def TeletexOrganizationalUnitName : Py.Obj :=
  Rfc3280.TeletexOrganizationalUnitName__0.setSubtypeSpec (Py.ValueSizeConstraint (.fin 1) Rfc3280.ub_organizational_unit_name_length.bound)

/-- rfc3280.py:684-685 `class TeletexPersonalName(univ.Set)` -/
def TeletexPersonalName__0 : Py.Obj :=
  Py.univ.Set

/-- rfc3280.py:688-701 `TeletexPersonalName.componentType = ...` -/
def TeletexPersonalName : Py.Obj :=
  Rfc3280.TeletexPersonalName__0.setComponentType (Py.NamedTypes [
    Py.NamedType "surname" ((Py.char.TeletexString.call.addSubtypeSpec (Py.ValueSizeConstraint (.fin 1) Rfc3280.ub_surname_length.bound)).implicitTag (Py.Tag .context false 0)),
    Py.OptionalNamedType "given-name" ((Py.char.TeletexString.call.addSubtypeSpec (Py.ValueSizeConstraint (.fin 1) Rfc3280.ub_given_name_length.bound)).implicitTag (Py.Tag .context false 1)),
    Py.OptionalNamedType "initials" ((Py.char.TeletexString.call.addSubtypeSpec (Py.ValueSizeConstraint (.fin 1) Rfc3280.ub_initials_length.bound)).implicitTag (Py.Tag .context false 2)),
    Py.OptionalNamedType "generation-qualifier" ((Py.char.TeletexString.call.addSubtypeSpec (Py.ValueSizeConstraint (.fin 1) Rfc3280.ub_generation_qualifier_length.bound)).implicitTag (Py.Tag .context false 3))])

/-- rfc3280.py:704-705 `class TeletexDomainDefinedAttributes(univ.SequenceOf)` -/
def TeletexDomainDefinedAttributes__0 : Py.Obj :=
  Py.univ.SequenceOf

/-- rfc3280.py:708 `TeletexDomainDefinedAttributes.componentType = ...` -/
def TeletexDomainDefinedAttributes__1 : Py.Obj :=
  Rfc3280.TeletexDomainDefinedAttributes__0.setComponentTypeOf Rfc3280.TeletexDomainDefinedAttribute.call

/-- rfc3280.py:709 `TeletexDomainDefinedAttributes.sizeSpec = ...` -/
def TeletexDomainDefinedAttributes : Py.Obj :=
  Rfc3280.TeletexDomainDefinedAttributes__1.setSizeSpec (Py.ValueSizeConstraint (.fin 1) Rfc3280.ub_domain_defined_attributes.bound)

/-- rfc3280.py:712-713 `class TBSCertList(univ.Sequence)` -/
def TBSCertList__0 : Py.Obj :=
  Py.univ.Sequence

/-- rfc3280.py:716-731 `TBSCertList.componentType = ...` -/
def TBSCertList : Py.Obj :=
  Rfc3280.TBSCertList__0.setComponentType (Py.NamedTypes [
    Py.OptionalNamedType "version" Rfc3280.Version.call,
    Py.NamedType "signature" Rfc3280.AlgorithmIdentifier.call,
    Py.NamedType "issuer" Rfc3280.Name.call,
    Py.NamedType "thisUpdate" Rfc3280.Time.call,
    Py.OptionalNamedType "nextUpdate" Rfc3280.Time.call,
    Py.OptionalNamedType "revokedCertificates" (Py.univ.SequenceOf.call.setComponentTypeOf (Py.univ.Sequence.call.setComponentType (Py.NamedTypes [
    Py.NamedType "userCertificate" Rfc3280.CertificateSerialNumber.call,
    Py.NamedType "revocationDate" Rfc3280.Time.call,
    Py.OptionalNamedType "crlEntryExtensions" Rfc3280.Extensions.call]))),
    Py.OptionalNamedType "crlExtensions" (Rfc3280.Extensions.call.explicitTag (Py.Tag .context false 0))])

/-- rfc3280.py:733 -/
def local_postal_attributes : Py.Obj :=
  (Py.univ.Integer.call.callInt 21)

/-- rfc3280.py:735 -/
def pkcs_9 : Py.Obj :=
  (Rfc3280._OID [.num 1, .num 2, .num 840, .num 113549, .num 1, .num 9])

/-- rfc3280.py:738-739 `class PhysicalDeliveryCountryName(univ.Choice)` -/
def PhysicalDeliveryCountryName__0 : Py.Obj :=
  Py.univ.Choice

/-- rfc3280.py:742-747 `PhysicalDeliveryCountryName.componentType = ...` -/
def PhysicalDeliveryCountryName : Py.Obj :=
  Rfc3280.PhysicalDeliveryCountryName__0.setComponentType (Py.NamedTypes [
    Py.NamedType "x121-dcc-code" (Py.char.NumericString.call.addSubtypeSpec (Py.ValueSizeConstraint Rfc3280.ub_country_name_numeric_length.bound Rfc3280.ub_country_name_numeric_length.bound)),
    Py.NamedType "iso-3166-alpha2-code" (Py.char.PrintableString.call.addSubtypeSpec (Py.ValueSizeConstraint Rfc3280.ub_country_name_alpha_length.bound Rfc3280.ub_country_name_alpha_length.bound))])

/-- rfc3280.py:749 -/
def ub_name : Py.Obj :=
  (Py.univ.Integer.call.callInt 32768)

/-- rfc3280.py:752-753 `class X520name(univ.Choice)` -/
def X520name__0 : Py.Obj :=
  Py.univ.Choice

/-- rfc3280.py:756-766 `X520name.componentType = ...` -/
def X520name : Py.Obj :=
  Rfc3280.X520name__0.setComponentType (Py.NamedTypes [
    Py.NamedType "teletexString" (Py.char.TeletexString.call.addSubtypeSpec (Py.ValueSizeConstraint (.fin 1) Rfc3280.ub_name.bound)),
    Py.NamedType "printableString" (Py.char.PrintableString.call.addSubtypeSpec (Py.ValueSizeConstraint (.fin 1) Rfc3280.ub_name.bound)),
    Py.NamedType "universalString" (Py.char.UniversalString.call.addSubtypeSpec (Py.ValueSizeConstraint (.fin 1) Rfc3280.ub_name.bound)),
    Py.NamedType "utf8String" (Py.char.UTF8String.call.addSubtypeSpec (Py.ValueSizeConstraint (.fin 1) Rfc3280.ub_name.bound)),
    Py.NamedType "bmpString" (Py.char.BMPString.call.addSubtypeSpec (Py.ValueSizeConstraint (.fin 1) Rfc3280.ub_name.bound))])

/-- rfc3280.py:768 -/
def id_emailAddress : Py.Obj :=
  (Rfc3280._OID [.oid Rfc3280.pkcs_9, .num 1])

/-- rfc3280.py:771-772 `class TerminalType(univ.Integer)` -/
def TerminalType__0 : Py.Obj :=
  Py.univ.Integer

/-- rfc3280.py:775-782 `TerminalType.namedValues = ...` -/
def TerminalType : Py.Obj :=
  Rfc3280.TerminalType__0.setNamedValues (Py.NamedValues [("telex", 3), ("teletex", 4), ("g3-facsimile", 5), ("g4-facsimile", 6), ("ia5-terminal", 7), ("videotex", 8)])

/-- rfc3280.py:785-786 `class X520OrganizationalUnitName(univ.Choice)` -/
def X520OrganizationalUnitName__0 : Py.Obj :=
  Py.univ.Choice

/-- rfc3280.py:789-800 `X520OrganizationalUnitName.componentType = ...` -/
def X520OrganizationalUnitName : Py.Obj :=
  Rfc3280.X520OrganizationalUnitName__0.setComponentType (Py.NamedTypes [
    Py.NamedType "teletexString" (Py.char.TeletexString.call.addSubtypeSpec (Py.ValueSizeConstraint (.fin 1) Rfc3280.ub_organizational_unit_name.bound)),
    Py.NamedType "printableString" (Py.char.PrintableString.call.addSubtypeSpec (Py.ValueSizeConstraint (.fin 1) Rfc3280.ub_organizational_unit_name.bound)),
    Py.NamedType "universalString" (Py.char.UniversalString.call.addSubtypeSpec (Py.ValueSizeConstraint (.fin 1) Rfc3280.ub_organizational_unit_name.bound)),
    Py.NamedType "utf8String" (Py.char.UTF8String.call.addSubtypeSpec (Py.ValueSizeConstraint (.fin 1) Rfc3280.ub_organizational_unit_name.bound)),
    Py.NamedType "bmpString" (Py.char.BMPString.call.addSubtypeSpec (Py.ValueSizeConstraint (.fin 1) Rfc3280.ub_organizational_unit_name.bound))])

/-- rfc3280.py:802 -/
def id_at_commonName : Py.Obj :=
  (Rfc3280._OID [.oid Rfc3280.id_at, .num 3])

/-- rfc3280.py:804 -/
def pds_name : Py.Obj :=
  (Py.univ.Integer.call.callInt 7)

/-- rfc3280.py:806 -/
def post_office_box_address : Py.Obj :=
  (Py.univ.Integer.call.callInt 18)

/-- rfc3280.py:808 -/
def ub_locality_name : Py.Obj :=
  (Py.univ.Integer.call.callInt 128)

/-- rfc3280.py:811-812 `class X520LocalityName(univ.Choice)` -/
def X520LocalityName__0 : Py.Obj :=
  Py.univ.Choice

/-- rfc3280.py:815-826 `X520LocalityName.componentType = ...` -/
def X520LocalityName : Py.Obj :=
  Rfc3280.X520LocalityName__0.setComponentType (Py.NamedTypes [
    Py.NamedType "teletexString" (Py.char.TeletexString.call.addSubtypeSpec (Py.ValueSizeConstraint (.fin 1) Rfc3280.ub_locality_name.bound)),
    Py.NamedType "printableString" (Py.char.PrintableString.call.addSubtypeSpec (Py.ValueSizeConstraint (.fin 1) Rfc3280.ub_locality_name.bound)),
    Py.NamedType "universalString" (Py.char.UniversalString.call.addSubtypeSpec (Py.ValueSizeConstraint (.fin 1) Rfc3280.ub_locality_name.bound)),
    Py.NamedType "utf8String" (Py.char.UTF8String.call.addSubtypeSpec (Py.ValueSizeConstraint (.fin 1) Rfc3280.ub_locality_name.bound)),
    Py.NamedType "bmpString" (Py.char.BMPString.call.addSubtypeSpec (Py.ValueSizeConstraint (.fin 1) Rfc3280.ub_locality_name.bound))])

/-- rfc3280.py:828 -/
def id_ad_timeStamping : Py.Obj :=
  (Rfc3280._OID [.oid Rfc3280.id_ad, .num 3])

/-- rfc3280.py:830 -/
def id_at_countryName : Py.Obj :=
  (Rfc3280._OID [.oid Rfc3280.id_at, .num 6])

/-- rfc3280.py:832 -/
def physical_delivery_personal_name : Py.Obj :=
  (Py.univ.Integer.call.callInt 13)

/-- rfc3280.py:834 -/
def teletex_personal_name : Py.Obj :=
  (Py.univ.Integer.call.callInt 4)

/-- rfc3280.py:836 -/
def teletex_organizational_unit_names : Py.Obj :=
  (Py.univ.Integer.call.callInt 5)

/-- rfc3280.py:839-840 `class PhysicalDeliveryPersonalName(PDSParameter)` -/
def PhysicalDeliveryPersonalName : Py.Obj :=
  Rfc3280.PDSParameter

/-- rfc3280.py:843 -/
def ub_postal_code_length : Py.Obj :=
  (Py.univ.Integer.call.callInt 16)

/-- rfc3280.py:846-847 `class PostalCode(univ.Choice)` -/
def PostalCode__0 : Py.Obj :=
  Py.univ.Choice

/-- rfc3280.py:850-855 `PostalCode.componentType = ...` -/
def PostalCode : Py.Obj :=
  Rfc3280.PostalCode__0.setComponentType (Py.NamedTypes [
    Py.NamedType "numeric-code" (Py.char.NumericString.call.addSubtypeSpec (Py.ValueSizeConstraint (.fin 1) Rfc3280.ub_postal_code_length.bound)),
    Py.NamedType "printable-code" (Py.char.PrintableString.call.addSubtypeSpec (Py.ValueSizeConstraint (.fin 1) Rfc3280.ub_postal_code_length.bound))])

/-- rfc3280.py:858-859 `class X520countryName(char.PrintableString)` -/
def X520countryName__0 : Py.Obj :=
  Py.char.PrintableString

/-- rfc3280.py:862 `X520countryName.subtypeSpec = ...` -/
def X520countryName : Py.Obj :=
  Rfc3280.X520countryName__0.setSubtypeSpec (Py.ValueSizeConstraint (.fin 2) (.fin 2))

/-- rfc3280.py:864 -/
def postal_code : Py.Obj :=
  (Py.univ.Integer.call.callInt 9)

/-- rfc3280.py:866 -/
def id_ad_caRepository : Py.Obj :=
  (Rfc3280._OID [.oid Rfc3280.id_ad, .num 5])

/-- rfc3280.py:868 -/
def extension_physical_delivery_address_components : Py.Obj :=
  (Py.univ.Integer.call.callInt 15)

/-- rfc3280.py:871-872 `class PostOfficeBoxAddress(PDSParameter)` -/
def PostOfficeBoxAddress : Py.Obj :=
  Rfc3280.PDSParameter

/-- rfc3280.py:875-876 `class PhysicalDeliveryOfficeName(PDSParameter)` -/
def PhysicalDeliveryOfficeName : Py.Obj :=
  Rfc3280.PDSParameter

/-- rfc3280.py:879 -/
def id_at_title : Py.Obj :=
  (Rfc3280._OID [.oid Rfc3280.id_at, .num 12])

/-- rfc3280.py:881 -/
def id_at_serialNumber : Py.Obj :=
  (Rfc3280._OID [.oid Rfc3280.id_at, .num 5])

/-- rfc3280.py:883 -/
def id_ad_caIssuers : Py.Obj :=
  (Rfc3280._OID [.oid Rfc3280.id_ad, .num 2])

/-- rfc3280.py:885 -/
def ub_integer_options : Py.Obj :=
  (Py.univ.Integer.call.callInt 256)

/-- rfc3280.py:888-889 `class CertificateList(univ.Sequence)` -/
def CertificateList__0 : Py.Obj :=
  Py.univ.Sequence

/-- rfc3280.py:892-896 `CertificateList.componentType = ...` -/
def CertificateList : Py.Obj :=
  Rfc3280.CertificateList__0.setComponentType (Py.NamedTypes [
    Py.NamedType "tbsCertList" Rfc3280.TBSCertList.call,
    Py.NamedType "signatureAlgorithm" Rfc3280.AlgorithmIdentifier.call,
    Py.NamedType "signature" Py.univ.BitString.call])

/-- rfc3280.py:899-900 `class PhysicalDeliveryOfficeNumber(PDSParameter)` -/
def PhysicalDeliveryOfficeNumber : Py.Obj :=
  Rfc3280.PDSParameter

/-- rfc3280.py:903-904 `class TeletexOrganizationalUnitNames(univ.SequenceOf)` -/
def TeletexOrganizationalUnitNames__0 : Py.Obj :=
  Py.univ.SequenceOf

/-- rfc3280.py:907 `TeletexOrganizationalUnitNames.componentType = ...` -/
def TeletexOrganizationalUnitNames__1 : Py.Obj :=
  Rfc3280.TeletexOrganizationalUnitNames__0.setComponentTypeOf Rfc3280.TeletexOrganizationalUnitName.call

/-- rfc3280.py:908 `TeletexOrganizationalUnitNames.sizeSpec = ...` -/
def TeletexOrganizationalUnitNames : Py.Obj :=
  Rfc3280.TeletexOrganizationalUnitNames__1.setSizeSpec (Py.ValueSizeConstraint (.fin 1) Rfc3280.ub_organizational_units.bound)

/-- rfc3280.py:910 -/
def physical_delivery_office_name : Py.Obj :=
  (Py.univ.Integer.call.callInt 10)

/-- rfc3280.py:912 -/
def ub_common_name : Py.Obj :=
  (Py.univ.Integer.call.callInt 64)

/-- rfc3280.py:915-916 `class ExtensionORAddressComponents(PDSParameter)` -/
def ExtensionORAddressComponents : Py.Obj :=
  Rfc3280.PDSParameter

/-- rfc3280.py:919 -/
def ub_pseudonym : Py.Obj :=
  (Py.univ.Integer.call.callInt 128)

/-- rfc3280.py:921 -/
def poste_restante_address : Py.Obj :=
  (Py.univ.Integer.call.callInt 19)

/-- rfc3280.py:923 -/
def id_at_organizationName : Py.Obj :=
  (Rfc3280._OID [.oid Rfc3280.id_at, .num 10])

/-- rfc3280.py:925 -/
def physical_delivery_office_number : Py.Obj :=
  (Py.univ.Integer.call.callInt 11)

/-- rfc3280.py:927 -/
def id_at_pseudonym : Py.Obj :=
  (Rfc3280._OID [.oid Rfc3280.id_at, .num 65])

/-- rfc3280.py:930-931 `class X520CommonName(univ.Choice)` -/
def X520CommonName__0 : Py.Obj :=
  Py.univ.Choice

/-- rfc3280.py:934-945 `X520CommonName.componentType = ...` -/
def X520CommonName : Py.Obj :=
  Rfc3280.X520CommonName__0.setComponentType (Py.NamedTypes [
    Py.NamedType "teletexString" (Py.char.TeletexString.call.addSubtypeSpec (Py.ValueSizeConstraint (.fin 1) Rfc3280.ub_common_name.bound)),
    Py.NamedType "printableString" (Py.char.PrintableString.call.addSubtypeSpec (Py.ValueSizeConstraint (.fin 1) Rfc3280.ub_common_name.bound)),
    Py.NamedType "universalString" (Py.char.UniversalString.call.addSubtypeSpec (Py.ValueSizeConstraint (.fin 1) Rfc3280.ub_common_name.bound)),
    Py.NamedType "utf8String" (Py.char.UTF8String.call.addSubtypeSpec (Py.ValueSizeConstraint (.fin 1) Rfc3280.ub_common_name.bound)),
    Py.NamedType "bmpString" (Py.char.BMPString.call.addSubtypeSpec (Py.ValueSizeConstraint (.fin 1) Rfc3280.ub_common_name.bound))])

/-- rfc3280.py:947 -/
def physical_delivery_organization_name : Py.Obj :=
  (Py.univ.Integer.call.callInt 14)

/-- rfc3280.py:950-951 `class X520dnQualifier(char.PrintableString)` -/
def X520dnQualifier : Py.Obj :=
  Py.char.PrintableString

/-- rfc3280.py:954 -/
def id_at_stateOrProvinceName : Py.Obj :=
  (Rfc3280._OID [.oid Rfc3280.id_at, .num 8])

/-- rfc3280.py:956 -/
def common_name : Py.Obj :=
  (Py.univ.Integer.call.callInt 1)

/-- rfc3280.py:958 -/
def id_at_localityName : Py.Obj :=
  (Rfc3280._OID [.oid Rfc3280.id_at, .num 7])

/-- rfc3280.py:960 -/
def ub_match : Py.Obj :=
  (Py.univ.Integer.call.callInt 128)

/-- rfc3280.py:962 -/
def ub_unformatted_address_length : Py.Obj :=
  (Py.univ.Integer.call.callInt 180)

/-- rfc3280.py:965-966 `class Attribute(univ.Sequence)` -/
def Attribute__0 : Py.Obj :=
  Py.univ.Sequence

/-- rfc3280.py:969-972 `Attribute.componentType = ...` -/
def Attribute : Py.Obj :=
  Rfc3280.Attribute__0.setComponentType (Py.NamedTypes [
    Py.NamedType "type" Rfc3280.AttributeType.call,
    Py.NamedType "values" (Py.univ.SetOf.call.setComponentTypeOf Rfc3280.AttributeValue.call)])

/-- rfc3280.py:974 -/
def extended_network_address : Py.Obj :=
  (Py.univ.Integer.call.callInt 22)

/-- rfc3280.py:976 -/
def unique_postal_name : Py.Obj :=
  (Py.univ.Integer.call.callInt 20)

/-- rfc3280.py:978 -/
def ub_pds_physical_address_lines : Py.Obj :=
  (Py.univ.Integer.call.callInt 6)

/-- rfc3280.py:981-982 `class UnformattedPostalAddress(univ.Set)` -/
def UnformattedPostalAddress__0 : Py.Obj :=
  Py.univ.Set

/-- rfc3280.py:985-990 `UnformattedPostalAddress.componentType = ...` -/
def UnformattedPostalAddress : Py.Obj :=
  Rfc3280.UnformattedPostalAddress__0.setComponentType (Py.NamedTypes [
    Py.OptionalNamedType "printable-address" (Py.univ.SequenceOf.call.setComponentTypeOf (Py.char.PrintableString.call.addSubtypeSpec (Py.ValueSizeConstraint (.fin 1) Rfc3280.ub_pds_parameter_length.bound))),
    Py.OptionalNamedType "teletex-string" (Py.char.TeletexString.call.addSubtypeSpec (Py.ValueSizeConstraint (.fin 1) Rfc3280.ub_unformatted_address_length.bound))])

/-- rfc3280.py:993-994 `class UniquePostalName(PDSParameter)` -/
def UniquePostalName : Py.Obj :=
  Rfc3280.PDSParameter

/-- rfc3280.py:997-998 `class X520Pseudonym(univ.Choice)` -/
def X520Pseudonym__0 : Py.Obj :=
  Py.univ.Choice

/-- rfc3280.py:1001-1012 `X520Pseudonym.componentType = ...` -/
def X520Pseudonym : Py.Obj :=
  Rfc3280.X520Pseudonym__0.setComponentType (Py.NamedTypes [
    Py.NamedType "teletexString" (Py.char.TeletexString.call.addSubtypeSpec (Py.ValueSizeConstraint (.fin 1) Rfc3280.ub_pseudonym.bound)),
    Py.NamedType "printableString" (Py.char.PrintableString.call.addSubtypeSpec (Py.ValueSizeConstraint (.fin 1) Rfc3280.ub_pseudonym.bound)),
    Py.NamedType "universalString" (Py.char.UniversalString.call.addSubtypeSpec (Py.ValueSizeConstraint (.fin 1) Rfc3280.ub_pseudonym.bound)),
    Py.NamedType "utf8String" (Py.char.UTF8String.call.addSubtypeSpec (Py.ValueSizeConstraint (.fin 1) Rfc3280.ub_pseudonym.bound)),
    Py.NamedType "bmpString" (Py.char.BMPString.call.addSubtypeSpec (Py.ValueSizeConstraint (.fin 1) Rfc3280.ub_pseudonym.bound))])

/-- rfc3280.py:1014 -/
def teletex_organization_name : Py.Obj :=
  (Py.univ.Integer.call.callInt 3)

/-- rfc3280.py:1016 -/
def teletex_domain_defined_attributes : Py.Obj :=
  (Py.univ.Integer.call.callInt 6)

/-- rfc3280.py:1018 -/
def street_address : Py.Obj :=
  (Py.univ.Integer.call.callInt 17)

/-- rfc3280.py:1020 -/
def id_kp_OCSPSigning : Py.Obj :=
  (Rfc3280._OID [.oid Rfc3280.id_kp, .num 9])

/-- rfc3280.py:1022 -/
def id_ce : Py.Obj :=
  (Rfc3280._OID [.num 2, .num 5, .num 29])

/-- rfc3280.py:1024 -/
def id_ce_certificatePolicies : Py.Obj :=
  (Rfc3280._OID [.oid Rfc3280.id_ce, .num 32])

/-- rfc3280.py:1027-1028 `class EDIPartyName(univ.Sequence)` -/
def EDIPartyName__0 : Py.Obj :=
  Py.univ.Sequence

/-- rfc3280.py:1031-1036 `EDIPartyName.componentType = ...` -/
def EDIPartyName : Py.Obj :=
  Rfc3280.EDIPartyName__0.setComponentType (Py.NamedTypes [
    Py.OptionalNamedType "nameAssigner" (Rfc3280.DirectoryString__1.call.implicitTag (Py.Tag .context false 0)),
    Py.NamedType "partyName" (Rfc3280.DirectoryString__1.call.implicitTag (Py.Tag .context false 1))])

/-- rfc3280.py:1039-1040 `class AnotherName(univ.Sequence)` -/
def AnotherName__0 : Py.Obj :=
  Py.univ.Sequence

/-- rfc3280.py:1043-1046 `AnotherName.componentType = ...` -/
def AnotherName : Py.Obj :=
  Rfc3280.AnotherName__0.setComponentType (Py.NamedTypes [
    Py.NamedType "type-id" Py.univ.ObjectIdentifier.call,
    Py.NamedType "value" (Py.univ.Any.call.explicitTag (Py.Tag .context false 0))])

/-- rfc3280.py:1049-1050 `class GeneralName(univ.Choice)` -/
def GeneralName__0 : Py.Obj :=
  Py.univ.Choice

/-- rfc3280.py:1053-1072 `GeneralName.componentType = ...` -/
def GeneralName : Py.Obj :=
  Rfc3280.GeneralName__0.setComponentType (Py.NamedTypes [
    Py.NamedType "otherName" (Rfc3280.AnotherName.call.implicitTag (Py.Tag .context true 0)),
    Py.NamedType "rfc822Name" (Py.char.IA5String.call.implicitTag (Py.Tag .context false 1)),
    Py.NamedType "dNSName" (Py.char.IA5String.call.implicitTag (Py.Tag .context false 2)),
    Py.NamedType "x400Address" (Rfc3280.ORAddress.call.implicitTag (Py.Tag .context false 3)),
    Py.NamedType "directoryName" (Rfc3280.Name.call.implicitTag (Py.Tag .context true 4)),
    Py.NamedType "ediPartyName" (Rfc3280.EDIPartyName.call.implicitTag (Py.Tag .context true 5)),
    Py.NamedType "uniformResourceIdentifier" (Py.char.IA5String.call.implicitTag (Py.Tag .context false 6)),
    Py.NamedType "iPAddress" (Py.univ.OctetString.call.implicitTag (Py.Tag .context false 7)),
    Py.NamedType "registeredID" (Py.univ.ObjectIdentifier.call.implicitTag (Py.Tag .context false 8))])

/-- rfc3280.py:1075-1076 `class GeneralNames(univ.SequenceOf)` -/
def GeneralNames__0 : Py.Obj :=
  Py.univ.SequenceOf

/-- rfc3280.py:1079 `GeneralNames.componentType = ...` -/
def GeneralNames__1 : Py.Obj :=
  Rfc3280.GeneralNames__0.setComponentTypeOf Rfc3280.GeneralName.call

/-- rfc3280.py:1080 `GeneralNames.sizeSpec = ...` -/
def GeneralNames : Py.Obj :=
  Rfc3280.GeneralNames__1.setSizeSpec (Py.ValueSizeConstraint (.fin 1) Rfc3280.MAX)

/-- rfc3280.py:1083-1084 `class IssuerAltName(GeneralNames)` -/
def IssuerAltName : Py.Obj :=
  Rfc3280.GeneralNames

/-- rfc3280.py:1087 -/
def id_ce_cRLDistributionPoints : Py.Obj :=
  (Rfc3280._OID [.oid Rfc3280.id_ce, .num 31])

/-- rfc3280.py:1090-1091 `class CertPolicyId(univ.ObjectIdentifier)` -/
def CertPolicyId : Py.Obj :=
  Py.univ.ObjectIdentifier

/-- rfc3280.py:1094-1095 `class PolicyMappings(univ.SequenceOf)` -/
def PolicyMappings__0 : Py.Obj :=
  Py.univ.SequenceOf

/-- rfc3280.py:1098-1101 `PolicyMappings.componentType = ...` -/
def PolicyMappings__1 : Py.Obj :=
  Rfc3280.PolicyMappings__0.setComponentTypeOf (Py.univ.Sequence.call.setComponentType (Py.NamedTypes [
    Py.NamedType "issuerDomainPolicy" Rfc3280.CertPolicyId.call,
    Py.NamedType "subjectDomainPolicy" Rfc3280.CertPolicyId.call]))

/-- rfc3280.py:1103 `PolicyMappings.sizeSpec = ...` -/
def PolicyMappings : Py.Obj :=
  Rfc3280.PolicyMappings__1.setSizeSpec (Py.ValueSizeConstraint (.fin 1) Rfc3280.MAX)

/-- rfc3280.py:1106-1107 `class PolicyQualifierId(univ.ObjectIdentifier)` -/
def PolicyQualifierId : Py.Obj :=
  Py.univ.ObjectIdentifier

/-- rfc3280.py:1110 -/
def holdInstruction : Py.Obj :=
  (Rfc3280._OID [.num 2, .num 2, .num 840, .num 10040, .num 2])

/-- rfc3280.py:1112 -/
def id_ce_subjectDirectoryAttributes : Py.Obj :=
  (Rfc3280._OID [.oid Rfc3280.id_ce, .num 9])

/-- rfc3280.py:1114 -/
def id_holdinstruction_callissuer : Py.Obj :=
  (Rfc3280._OID [.oid Rfc3280.holdInstruction, .num 2])

/-- rfc3280.py:1117-1118 `class SubjectDirectoryAttributes(univ.SequenceOf)` -/
def SubjectDirectoryAttributes__0 : Py.Obj :=
  Py.univ.SequenceOf

/-- rfc3280.py:1121 `SubjectDirectoryAttributes.componentType = ...` -/
def SubjectDirectoryAttributes__1 : Py.Obj :=
  Rfc3280.SubjectDirectoryAttributes__0.setComponentTypeOf Rfc3280.Attribute.call

/-- rfc3280.py:1122 `SubjectDirectoryAttributes.sizeSpec = ...` -/
def SubjectDirectoryAttributes : Py.Obj :=
  Rfc3280.SubjectDirectoryAttributes__1.setSizeSpec (Py.ValueSizeConstraint (.fin 1) Rfc3280.MAX)

/-- rfc3280.py:1124 -/
def anyPolicy : Py.Obj :=
  (Rfc3280._OID [.oid Rfc3280.id_ce_certificatePolicies, .num 0])

/-- rfc3280.py:1126 -/
def id_ce_subjectAltName : Py.Obj :=
  (Rfc3280._OID [.oid Rfc3280.id_ce, .num 17])

/-- rfc3280.py:1128 -/
def id_kp_emailProtection : Py.Obj :=
  (Rfc3280._OID [.oid Rfc3280.id_kp, .num 4])

/-- rfc3280.py:1131-1132 `class ReasonFlags(univ.BitString)` -/
def ReasonFlags__0 : Py.Obj :=
  Py.univ.BitString

/-- rfc3280.py:1135-1145 `ReasonFlags.namedValues = ...` -/
def ReasonFlags : Py.Obj :=
  Rfc3280.ReasonFlags__0.setNamedValues (Py.NamedValues [("unused", 0), ("keyCompromise", 1), ("cACompromise", 2), ("affiliationChanged", 3), ("superseded", 4), ("cessationOfOperation", 5), ("certificateHold", 6), ("privilegeWithdrawn", 7), ("aACompromise", 8)])

/-- rfc3280.py:1148-1149 `class DistributionPointName(univ.Choice)` -/
def DistributionPointName__0 : Py.Obj :=
  Py.univ.Choice

/-- rfc3280.py:1152-1157 `DistributionPointName.componentType = ...` -/
def DistributionPointName : Py.Obj :=
  Rfc3280.DistributionPointName__0.setComponentType (Py.NamedTypes [
    Py.NamedType "fullName" (Rfc3280.GeneralNames.call.implicitTag (Py.Tag .context false 0)),
    Py.NamedType "nameRelativeToCRLIssuer" (Rfc3280.RelativeDistinguishedName.call.implicitTag (Py.Tag .context false 1))])

/-- rfc3280.py:1160-1161 `class DistributionPoint(univ.Sequence)` -/
def DistributionPoint__0 : Py.Obj :=
  Py.univ.Sequence

/-- rfc3280.py:1164-1171 `DistributionPoint.componentType = ...` -/
def DistributionPoint : Py.Obj :=
  Rfc3280.DistributionPoint__0.setComponentType (Py.NamedTypes [
    Py.OptionalNamedType "distributionPoint" (Rfc3280.DistributionPointName.call.implicitTag (Py.Tag .context true 0)),
    Py.OptionalNamedType "reasons" (Rfc3280.ReasonFlags.call.implicitTag (Py.Tag .context false 1)),
    Py.OptionalNamedType "cRLIssuer" (Rfc3280.GeneralNames.call.implicitTag (Py.Tag .context false 2))])

/-- rfc3280.py:1173 -/
def id_ce_keyUsage : Py.Obj :=
  (Rfc3280._OID [.oid Rfc3280.id_ce, .num 15])

/-- rfc3280.py:1176-1177 `class PolicyQualifierInfo(univ.Sequence)` -/
def PolicyQualifierInfo__0 : Py.Obj :=
  Py.univ.Sequence

/-- rfc3280.py:1180-1183 `PolicyQualifierInfo.componentType = ...` -/
def PolicyQualifierInfo : Py.Obj :=
  Rfc3280.PolicyQualifierInfo__0.setComponentType (Py.NamedTypes [
    Py.NamedType "policyQualifierId" Rfc3280.PolicyQualifierId.call,
    Py.NamedType "qualifier" Py.univ.Any.call])

/-- rfc3280.py:1186-1187 `class PolicyInformation(univ.Sequence)` -/
def PolicyInformation__0 : Py.Obj :=
  Py.univ.Sequence

/-- rfc3280.py:1190-1193 `PolicyInformation.componentType = ...` -/
def PolicyInformation : Py.Obj :=
  Rfc3280.PolicyInformation__0.setComponentType (Py.NamedTypes [
    Py.NamedType "policyIdentifier" Rfc3280.CertPolicyId.call,
    Py.OptionalNamedType "policyQualifiers" (Py.univ.SequenceOf.call.setComponentTypeOf Rfc3280.PolicyQualifierInfo.call)])

/-- rfc3280.py:1196-1197 `class CertificatePolicies(univ.SequenceOf)` -/
def CertificatePolicies__0 : Py.Obj :=
  Py.univ.SequenceOf

/-- rfc3280.py:1200 `CertificatePolicies.componentType = ...` -/
def CertificatePolicies__1 : Py.Obj :=
  Rfc3280.CertificatePolicies__0.setComponentTypeOf Rfc3280.PolicyInformation.call

/-- rfc3280.py:1201 `CertificatePolicies.sizeSpec = ...` -/
def CertificatePolicies : Py.Obj :=
  Rfc3280.CertificatePolicies__1.setSizeSpec (Py.ValueSizeConstraint (.fin 1) Rfc3280.MAX)

/-- rfc3280.py:1203 -/
def id_ce_basicConstraints : Py.Obj :=
  (Rfc3280._OID [.oid Rfc3280.id_ce, .num 19])

/-- rfc3280.py:1206-1207 `class HoldInstructionCode(univ.ObjectIdentifier)` -/
def HoldInstructionCode : Py.Obj :=
  Py.univ.ObjectIdentifier

/-- rfc3280.py:1210-1211 `class KeyPurposeId(univ.ObjectIdentifier)` -/
def KeyPurposeId : Py.Obj :=
  Py.univ.ObjectIdentifier

/-- rfc3280.py:1214-1215 `class ExtKeyUsageSyntax(univ.SequenceOf)` -/
def ExtKeyUsageSyntax__0 : Py.Obj :=
  Py.univ.SequenceOf

/-- rfc3280.py:1218 `ExtKeyUsageSyntax.componentType = ...` -/
def ExtKeyUsageSyntax__1 : Py.Obj :=
  Rfc3280.ExtKeyUsageSyntax__0.setComponentTypeOf Rfc3280.KeyPurposeId.call

/-- rfc3280.py:1219 `ExtKeyUsageSyntax.sizeSpec = ...` -/
def ExtKeyUsageSyntax : Py.Obj :=
  Rfc3280.ExtKeyUsageSyntax__1.setSizeSpec (Py.ValueSizeConstraint (.fin 1) Rfc3280.MAX)

/-- rfc3280.py:1222-1223 `class SubjectAltName(GeneralNames)` -/
def SubjectAltName : Py.Obj :=
  Rfc3280.GeneralNames

/-- rfc3280.py:1226-1227 `class BasicConstraints(univ.Sequence)` -/
def BasicConstraints__0 : Py.Obj :=
  Py.univ.Sequence

/-- rfc3280.py:1230-1234 `BasicConstraints.componentType = ...` -/
def BasicConstraints : Py.Obj :=
  Rfc3280.BasicConstraints__0.setComponentType (Py.NamedTypes [
    Py.DefaultedNamedType "cA" (Py.univ.Boolean.call.callInt 0),
    Py.OptionalNamedType "pathLenConstraint" (Py.univ.Integer.call.addSubtypeSpec (Py.ValueRangeConstraint (.fin 0) Rfc3280.MAX))])

/-- rfc3280.py:1237-1238 `class SkipCerts(univ.Integer)` -/
def SkipCerts__0 : Py.Obj :=
  Py.univ.Integer

/-- rfc3280.py:1241 `SkipCerts.subtypeSpec = ...` -/
def SkipCerts : Py.Obj :=
  Rfc3280.SkipCerts__0.setSubtypeSpec (Py.ValueRangeConstraint (.fin 0) Rfc3280.MAX)

/-- rfc3280.py:1244-1245 `class InhibitAnyPolicy(SkipCerts)` -/
def InhibitAnyPolicy : Py.Obj :=
  Rfc3280.SkipCerts

/-- rfc3280.py:1248-1249 `class CRLNumber(univ.Integer)` -/
def CRLNumber__0 : Py.Obj :=
  Py.univ.Integer

/-- rfc3280.py:1252 `CRLNumber.subtypeSpec = ...` -/
def CRLNumber : Py.Obj :=
  Rfc3280.CRLNumber__0.setSubtypeSpec (Py.ValueRangeConstraint (.fin 0) Rfc3280.MAX)

/-- rfc3280.py:1255-1256 `class BaseCRLNumber(CRLNumber)` -/
def BaseCRLNumber : Py.Obj :=
  Rfc3280.CRLNumber

/-- rfc3280.py:1259-1260 `class KeyIdentifier(univ.OctetString)` -/
def KeyIdentifier : Py.Obj :=
  Py.univ.OctetString

/-- rfc3280.py:1263-1264 `class AuthorityKeyIdentifier(univ.Sequence)` -/
def AuthorityKeyIdentifier__0 : Py.Obj :=
  Py.univ.Sequence

/-- rfc3280.py:1267-1274 `AuthorityKeyIdentifier.componentType = ...` -/
def AuthorityKeyIdentifier : Py.Obj :=
  Rfc3280.AuthorityKeyIdentifier__0.setComponentType (Py.NamedTypes [
    Py.OptionalNamedType "keyIdentifier" (Rfc3280.KeyIdentifier.call.implicitTag (Py.Tag .context false 0)),
    Py.OptionalNamedType "authorityCertIssuer" (Rfc3280.GeneralNames.call.implicitTag (Py.Tag .context false 1)),
    Py.OptionalNamedType "authorityCertSerialNumber" (Rfc3280.CertificateSerialNumber.call.implicitTag (Py.Tag .context false 2))])

/-- rfc3280.py:1276 -/
def id_ce_nameConstraints : Py.Obj :=
  (Rfc3280._OID [.oid Rfc3280.id_ce, .num 30])

/-- rfc3280.py:1278 -/
def id_kp_serverAuth : Py.Obj :=
  (Rfc3280._OID [.oid Rfc3280.id_kp, .num 1])

/-- rfc3280.py:1280 -/
def id_ce_freshestCRL : Py.Obj :=
  (Rfc3280._OID [.oid Rfc3280.id_ce, .num 46])

/-- rfc3280.py:1282 -/
def id_ce_cRLReasons : Py.Obj :=
  (Rfc3280._OID [.oid Rfc3280.id_ce, .num 21])

/-- rfc3280.py:1285-1286 `class CRLDistributionPoints(univ.SequenceOf)` -/
def CRLDistributionPoints__0 : Py.Obj :=
  Py.univ.SequenceOf

/-- rfc3280.py:1289 `CRLDistributionPoints.componentType = ...` -/
def CRLDistributionPoints__1 : Py.Obj :=
  Rfc3280.CRLDistributionPoints__0.setComponentTypeOf Rfc3280.DistributionPoint.call

/-- rfc3280.py:1290 `CRLDistributionPoints.sizeSpec = ...` -/
def CRLDistributionPoints : Py.Obj :=
  Rfc3280.CRLDistributionPoints__1.setSizeSpec (Py.ValueSizeConstraint (.fin 1) Rfc3280.MAX)

/-- rfc3280.py:1293-1294 `class FreshestCRL(CRLDistributionPoints)` -/
def FreshestCRL : Py.Obj :=
  Rfc3280.CRLDistributionPoints

/-- rfc3280.py:1297 -/
def id_ce_inhibitAnyPolicy : Py.Obj :=
  (Rfc3280._OID [.oid Rfc3280.id_ce, .num 54])

/-- rfc3280.py:1300-1301 `class CRLReason(univ.Enumerated)` -/
def CRLReason__0 : Py.Obj :=
  Py.univ.Enumerated

/-- rfc3280.py:1304-1315 `CRLReason.namedValues = ...` -/
def CRLReason : Py.Obj :=
  Rfc3280.CRLReason__0.setNamedValues (Py.NamedValues [("unspecified", 0), ("keyCompromise", 1), ("cACompromise", 2), ("affiliationChanged", 3), ("superseded", 4), ("cessationOfOperation", 5), ("certificateHold", 6), ("removeFromCRL", 8), ("privilegeWithdrawn", 9), ("aACompromise", 10)])

/-- rfc3280.py:1318-1319 `class BaseDistance(univ.Integer)` -/
def BaseDistance__0 : Py.Obj :=
  Py.univ.Integer

/-- rfc3280.py:1322 `BaseDistance.subtypeSpec = ...` -/
def BaseDistance : Py.Obj :=
  Rfc3280.BaseDistance__0.setSubtypeSpec (Py.ValueRangeConstraint (.fin 0) Rfc3280.MAX)

/-- rfc3280.py:1325-1326 `class GeneralSubtree(univ.Sequence)` -/
def GeneralSubtree__0 : Py.Obj :=
  Py.univ.Sequence

/-- rfc3280.py:1329-1335 `GeneralSubtree.componentType = ...` -/
def GeneralSubtree : Py.Obj :=
  Rfc3280.GeneralSubtree__0.setComponentType (Py.NamedTypes [
    Py.NamedType "base" Rfc3280.GeneralName.call,
    Py.DefaultedNamedType "minimum" ((Rfc3280.BaseDistance.call.implicitTag (Py.Tag .context false 0)).callInt 0),
    Py.OptionalNamedType "maximum" (Rfc3280.BaseDistance.call.implicitTag (Py.Tag .context false 1))])

/-- rfc3280.py:1338-1339 `class GeneralSubtrees(univ.SequenceOf)` -/
def GeneralSubtrees__0 : Py.Obj :=
  Py.univ.SequenceOf

/-- rfc3280.py:1342 `GeneralSubtrees.componentType = ...` -/
def GeneralSubtrees__1 : Py.Obj :=
  Rfc3280.GeneralSubtrees__0.setComponentTypeOf Rfc3280.GeneralSubtree.call

/-- rfc3280.py:1343 `GeneralSubtrees.sizeSpec = ...` -/
def GeneralSubtrees : Py.Obj :=
  Rfc3280.GeneralSubtrees__1.setSizeSpec (Py.ValueSizeConstraint (.fin 1) Rfc3280.MAX)

/-- rfc3280.py:1346-1347 `class NameConstraints(univ.Sequence)` -/
def NameConstraints__0 : Py.Obj :=
  Py.univ.Sequence

/-- rfc3280.py:1350-1355 `NameConstraints.componentType = ...` -/
def NameConstraints : Py.Obj :=
  Rfc3280.NameConstraints__0.setComponentType (Py.NamedTypes [
    Py.OptionalNamedType "permittedSubtrees" (Rfc3280.GeneralSubtrees.call.implicitTag (Py.Tag .context false 0)),
    Py.OptionalNamedType "excludedSubtrees" (Rfc3280.GeneralSubtrees.call.implicitTag (Py.Tag .context false 1))])

/-- rfc3280.py:1357 -/
def id_pe_authorityInfoAccess : Py.Obj :=
  (Rfc3280._OID [.oid Rfc3280.id_pe, .num 1])

/-- rfc3280.py:1359 -/
def id_pe_subjectInfoAccess : Py.Obj :=
  (Rfc3280._OID [.oid Rfc3280.id_pe, .num 11])

/-- rfc3280.py:1361 -/
def id_ce_certificateIssuer : Py.Obj :=
  (Rfc3280._OID [.oid Rfc3280.id_ce, .num 29])

/-- rfc3280.py:1363 -/
def id_ce_invalidityDate : Py.Obj :=
  (Rfc3280._OID [.oid Rfc3280.id_ce, .num 24])

/-- rfc3280.py:1366-1367 `class DirectoryString(univ.Choice)` -/
def DirectoryString__2 : Py.Obj :=
  Py.univ.Choice

/-- rfc3280.py:1370-1372 `DirectoryString.componentType = ...` -/
def DirectoryString : Py.Obj :=
  Rfc3280.DirectoryString__2.setComponentType (Py.NamedTypes [
    Py.NamedType "any" Py.univ.Any.call])

/-- rfc3280.py:1374 -/
def id_ce_authorityKeyIdentifier : Py.Obj :=
  (Rfc3280._OID [.oid Rfc3280.id_ce, .num 35])

/-- rfc3280.py:1377-1378 `class AccessDescription(univ.Sequence)` -/
def AccessDescription__0 : Py.Obj :=
  Py.univ.Sequence

/-- rfc3280.py:1381-1384 `AccessDescription.componentType = ...` -/
def AccessDescription : Py.Obj :=
  Rfc3280.AccessDescription__0.setComponentType (Py.NamedTypes [
    Py.NamedType "accessMethod" Py.univ.ObjectIdentifier.call,
    Py.NamedType "accessLocation" Rfc3280.GeneralName.call])

/-- rfc3280.py:1387-1388 `class AuthorityInfoAccessSyntax(univ.SequenceOf)` -/
def AuthorityInfoAccessSyntax__0 : Py.Obj :=
  Py.univ.SequenceOf

/-- rfc3280.py:1391 `AuthorityInfoAccessSyntax.componentType = ...` -/
def AuthorityInfoAccessSyntax__1 : Py.Obj :=
  Rfc3280.AuthorityInfoAccessSyntax__0.setComponentTypeOf Rfc3280.AccessDescription.call

/-- rfc3280.py:1392 `AuthorityInfoAccessSyntax.sizeSpec = ...` -/
def AuthorityInfoAccessSyntax : Py.Obj :=
  Rfc3280.AuthorityInfoAccessSyntax__1.setSizeSpec (Py.ValueSizeConstraint (.fin 1) Rfc3280.MAX)

/-- rfc3280.py:1394 -/
def id_ce_issuingDistributionPoint : Py.Obj :=
  (Rfc3280._OID [.oid Rfc3280.id_ce, .num 28])

/-- rfc3280.py:1397-1398 `class CPSuri(char.IA5String)` -/
def CPSuri : Py.Obj :=
  Py.char.IA5String

/-- rfc3280.py:1401-1402 `class DisplayText(univ.Choice)` -/
def DisplayText__0 : Py.Obj :=
  Py.univ.Choice

/-- rfc3280.py:1405-1411 `DisplayText.componentType = ...` -/
def DisplayText : Py.Obj :=
  Rfc3280.DisplayText__0.setComponentType (Py.NamedTypes [
    Py.NamedType "ia5String" (Py.char.IA5String.call.addSubtypeSpec (Py.ValueSizeConstraint (.fin 1) (.fin 200))),
    Py.NamedType "visibleString" (Py.char.VisibleString.call.addSubtypeSpec (Py.ValueSizeConstraint (.fin 1) (.fin 200))),
    Py.NamedType "bmpString" (Py.char.BMPString.call.addSubtypeSpec (Py.ValueSizeConstraint (.fin 1) (.fin 200))),
    Py.NamedType "utf8String" (Py.char.UTF8String.call.addSubtypeSpec (Py.ValueSizeConstraint (.fin 1) (.fin 200)))])

/-- rfc3280.py:1414-1415 `class NoticeReference(univ.Sequence)` -/
def NoticeReference__0 : Py.Obj :=
  Py.univ.Sequence

/-- rfc3280.py:1418-1421 `NoticeReference.componentType = ...` -/
def NoticeReference : Py.Obj :=
  Rfc3280.NoticeReference__0.setComponentType (Py.NamedTypes [
    Py.NamedType "organization" Rfc3280.DisplayText.call,
    Py.NamedType "noticeNumbers" (Py.univ.SequenceOf.call.setComponentTypeOf Py.univ.Integer.call)])

/-- rfc3280.py:1424-1425 `class UserNotice(univ.Sequence)` -/
def UserNotice__0 : Py.Obj :=
  Py.univ.Sequence

/-- rfc3280.py:1428-1431 `UserNotice.componentType = ...` -/
def UserNotice : Py.Obj :=
  Rfc3280.UserNotice__0.setComponentType (Py.NamedTypes [
    Py.OptionalNamedType "noticeRef" Rfc3280.NoticeReference.call,
    Py.OptionalNamedType "explicitText" Rfc3280.DisplayText.call])

/-- rfc3280.py:1434-1435 `class PrivateKeyUsagePeriod(univ.Sequence)` -/
def PrivateKeyUsagePeriod__0 : Py.Obj :=
  Py.univ.Sequence

/-- rfc3280.py:1438-1443 `PrivateKeyUsagePeriod.componentType = ...` -/
def PrivateKeyUsagePeriod : Py.Obj :=
  Rfc3280.PrivateKeyUsagePeriod__0.setComponentType (Py.NamedTypes [
    Py.OptionalNamedType "notBefore" (Py.useful.GeneralizedTime.call.implicitTag (Py.Tag .context false 0)),
    Py.OptionalNamedType "notAfter" (Py.useful.GeneralizedTime.call.implicitTag (Py.Tag .context false 1))])

/-- rfc3280.py:1445 -/
def id_ce_subjectKeyIdentifier : Py.Obj :=
  (Rfc3280._OID [.oid Rfc3280.id_ce, .num 14])

/-- rfc3280.py:1448-1449 `class CertificateIssuer(GeneralNames)` -/
def CertificateIssuer : Py.Obj :=
  Rfc3280.GeneralNames

/-- rfc3280.py:1452-1453 `class InvalidityDate(useful.GeneralizedTime)` -/
def InvalidityDate : Py.Obj :=
  Py.useful.GeneralizedTime

/-- rfc3280.py:1456-1457 `class SubjectInfoAccessSyntax(univ.SequenceOf)` -/
def SubjectInfoAccessSyntax__0 : Py.Obj :=
  Py.univ.SequenceOf

/-- rfc3280.py:1460 `SubjectInfoAccessSyntax.componentType = ...` -/
def SubjectInfoAccessSyntax__1 : Py.Obj :=
  Rfc3280.SubjectInfoAccessSyntax__0.setComponentTypeOf Rfc3280.AccessDescription.call

/-- rfc3280.py:1461 `SubjectInfoAccessSyntax.sizeSpec = ...` -/
def SubjectInfoAccessSyntax : Py.Obj :=
  Rfc3280.SubjectInfoAccessSyntax__1.setSizeSpec (Py.ValueSizeConstraint (.fin 1) Rfc3280.MAX)

/-- rfc3280.py:1464-1465 `class KeyUsage(univ.BitString)` -/
def KeyUsage__0 : Py.Obj :=
  Py.univ.BitString

/-- rfc3280.py:1468-1478 `KeyUsage.namedValues = ...` -/
def KeyUsage : Py.Obj :=
  Rfc3280.KeyUsage__0.setNamedValues (Py.NamedValues [("digitalSignature", 0), ("nonRepudiation", 1), ("keyEncipherment", 2), ("dataEncipherment", 3), ("keyAgreement", 4), ("keyCertSign", 5), ("cRLSign", 6), ("encipherOnly", 7), ("decipherOnly", 8)])

/-- rfc3280.py:1480 -/
def id_ce_extKeyUsage : Py.Obj :=
  (Rfc3280._OID [.oid Rfc3280.id_ce, .num 37])

/-- rfc3280.py:1482 -/
def anyExtendedKeyUsage : Py.Obj :=
  (Rfc3280._OID [.oid Rfc3280.id_ce_extKeyUsage, .num 0])

/-- rfc3280.py:1484 -/
def id_ce_privateKeyUsagePeriod : Py.Obj :=
  (Rfc3280._OID [.oid Rfc3280.id_ce, .num 16])

/-- rfc3280.py:1486 -/
def id_ce_policyMappings : Py.Obj :=
  (Rfc3280._OID [.oid Rfc3280.id_ce, .num 33])

/-- rfc3280.py:1488 -/
def id_ce_cRLNumber : Py.Obj :=
  (Rfc3280._OID [.oid Rfc3280.id_ce, .num 20])

/-- rfc3280.py:1490 -/
def id_ce_policyConstraints : Py.Obj :=
  (Rfc3280._OID [.oid Rfc3280.id_ce, .num 36])

/-- rfc3280.py:1492 -/
def id_holdinstruction_none : Py.Obj :=
  (Rfc3280._OID [.oid Rfc3280.holdInstruction, .num 1])

/-- rfc3280.py:1494 -/
def id_holdinstruction_reject : Py.Obj :=
  (Rfc3280._OID [.oid Rfc3280.holdInstruction, .num 3])

/-- rfc3280.py:1496 -/
def id_kp_timeStamping : Py.Obj :=
  (Rfc3280._OID [.oid Rfc3280.id_kp, .num 8])

/-- rfc3280.py:1499-1500 `class PolicyConstraints(univ.Sequence)` -/
def PolicyConstraints__0 : Py.Obj :=
  Py.univ.Sequence

/-- rfc3280.py:1503-1508 `PolicyConstraints.componentType = ...` -/
def PolicyConstraints : Py.Obj :=
  Rfc3280.PolicyConstraints__0.setComponentType (Py.NamedTypes [
    Py.OptionalNamedType "requireExplicitPolicy" (Rfc3280.SkipCerts.call.implicitTag (Py.Tag .context false 0)),
    Py.OptionalNamedType "inhibitPolicyMapping" (Rfc3280.SkipCerts.call.implicitTag (Py.Tag .context false 1))])

/-- rfc3280.py:1511-1512 `class SubjectKeyIdentifier(KeyIdentifier)` -/
def SubjectKeyIdentifier : Py.Obj :=
  Rfc3280.KeyIdentifier

/-- rfc3280.py:1515 -/
def id_kp_clientAuth : Py.Obj :=
  (Rfc3280._OID [.oid Rfc3280.id_kp, .num 2])

/-- rfc3280.py:1517 -/
def id_ce_deltaCRLIndicator : Py.Obj :=
  (Rfc3280._OID [.oid Rfc3280.id_ce, .num 27])

/-- rfc3280.py:1519 -/
def id_ce_issuerAltName : Py.Obj :=
  (Rfc3280._OID [.oid Rfc3280.id_ce, .num 18])

/-- rfc3280.py:1521 -/
def id_kp_codeSigning : Py.Obj :=
  (Rfc3280._OID [.oid Rfc3280.id_kp, .num 3])

/-- rfc3280.py:1523 -/
def id_ce_holdInstructionCode : Py.Obj :=
  (Rfc3280._OID [.oid Rfc3280.id_ce, .num 23])

/-- rfc3280.py:1526-1527 `class IssuingDistributionPoint(univ.Sequence)` -/
def IssuingDistributionPoint__0 : Py.Obj :=
  Py.univ.Sequence

/-- rfc3280.py:1530-1543 `IssuingDistributionPoint.componentType = ...` -/
def IssuingDistributionPoint : Py.Obj :=
  Rfc3280.IssuingDistributionPoint__0.setComponentType (Py.NamedTypes [
    Py.OptionalNamedType "distributionPoint" (Rfc3280.DistributionPointName.call.implicitTag (Py.Tag .context true 0)),
    Py.DefaultedNamedType "onlyContainsUserCerts" ((Py.univ.Boolean.call.implicitTag (Py.Tag .context false 1)).callInt 0),
    Py.DefaultedNamedType "onlyContainsCACerts" ((Py.univ.Boolean.call.implicitTag (Py.Tag .context false 2)).callInt 0),
    Py.OptionalNamedType "onlySomeReasons" (Rfc3280.ReasonFlags.call.implicitTag (Py.Tag .context false 3)),
    Py.DefaultedNamedType "indirectCRL" ((Py.univ.Boolean.call.implicitTag (Py.Tag .context false 4)).callInt 0),
    Py.DefaultedNamedType "onlyContainsAttributeCerts" ((Py.univ.Boolean.call.implicitTag (Py.Tag .context false 5)).callInt 0)])

/-- Modules of this package imported by rfc3280.py, in textual order. -/
def imports : List Py.Ident :=
  []

/-- Dictionary operations executed when rfc3280.py is imported, in program order. -/
def effects : List Py.Effect :=
  []

/-- ASN.1 types rfc3280.py binds at module level (final version of each name), plus nested classes. -/
def classes : List (String × Py.Obj) :=
  [("rfc3280.OrganizationalUnitName", Rfc3280.OrganizationalUnitName),
   ("rfc3280.OrganizationalUnitNames", Rfc3280.OrganizationalUnitNames),
   ("rfc3280.AttributeType", Rfc3280.AttributeType),
   ("rfc3280.PDSParameter", Rfc3280.PDSParameter),
   ("rfc3280.PhysicalDeliveryOrganizationName", Rfc3280.PhysicalDeliveryOrganizationName),
   ("rfc3280.TeletexDomainDefinedAttribute", Rfc3280.TeletexDomainDefinedAttribute),
   ("rfc3280.PresentationAddress", Rfc3280.PresentationAddress),
   ("rfc3280.AlgorithmIdentifier", Rfc3280.AlgorithmIdentifier),
   ("rfc3280.UniqueIdentifier", Rfc3280.UniqueIdentifier),
   ("rfc3280.Extension", Rfc3280.Extension),
   ("rfc3280.Extensions", Rfc3280.Extensions),
   ("rfc3280.CertificateSerialNumber", Rfc3280.CertificateSerialNumber),
   ("rfc3280.SubjectPublicKeyInfo", Rfc3280.SubjectPublicKeyInfo),
   ("rfc3280.Time", Rfc3280.Time),
   ("rfc3280.Validity", Rfc3280.Validity),
   ("rfc3280.Version", Rfc3280.Version),
   ("rfc3280.AttributeValue", Rfc3280.AttributeValue),
   ("rfc3280.AttributeTypeAndValue", Rfc3280.AttributeTypeAndValue),
   ("rfc3280.RelativeDistinguishedName", Rfc3280.RelativeDistinguishedName),
   ("rfc3280.RDNSequence", Rfc3280.RDNSequence),
   ("rfc3280.Name", Rfc3280.Name),
   ("rfc3280.TBSCertificate", Rfc3280.TBSCertificate),
   ("rfc3280.Certificate", Rfc3280.Certificate),
   ("rfc3280.TeletexOrganizationName", Rfc3280.TeletexOrganizationName),
   ("rfc3280.CountryName", Rfc3280.CountryName),
   ("rfc3280.ExtendedNetworkAddress", Rfc3280.ExtendedNetworkAddress),
   ("rfc3280.X520StateOrProvinceName", Rfc3280.X520StateOrProvinceName),
   ("rfc3280.X520OrganizationName", Rfc3280.X520OrganizationName),
   ("rfc3280.ExtensionPhysicalDeliveryAddressComponents", Rfc3280.ExtensionPhysicalDeliveryAddressComponents),
   ("rfc3280.NumericUserIdentifier", Rfc3280.NumericUserIdentifier),
   ("rfc3280.OrganizationName", Rfc3280.OrganizationName),
   ("rfc3280.AdministrationDomainName", Rfc3280.AdministrationDomainName),
   ("rfc3280.PrivateDomainName", Rfc3280.PrivateDomainName),
   ("rfc3280.PersonalName", Rfc3280.PersonalName),
   ("rfc3280.TerminalIdentifier", Rfc3280.TerminalIdentifier),
   ("rfc3280.X121Address", Rfc3280.X121Address),
   ("rfc3280.NetworkAddress", Rfc3280.NetworkAddress),
   ("rfc3280.BuiltInStandardAttributes", Rfc3280.BuiltInStandardAttributes),
   ("rfc3280.BuiltInDomainDefinedAttribute", Rfc3280.BuiltInDomainDefinedAttribute),
   ("rfc3280.BuiltInDomainDefinedAttributes", Rfc3280.BuiltInDomainDefinedAttributes),
   ("rfc3280.ExtensionAttribute", Rfc3280.ExtensionAttribute),
   ("rfc3280.ExtensionAttributes", Rfc3280.ExtensionAttributes),
   ("rfc3280.ORAddress", Rfc3280.ORAddress),
   ("rfc3280.X520Title", Rfc3280.X520Title),
   ("rfc3280.EmailAddress", Rfc3280.EmailAddress),
   ("rfc3280.TeletexCommonName", Rfc3280.TeletexCommonName),
   ("rfc3280.LocalPostalAttributes", Rfc3280.LocalPostalAttributes),
   ("rfc3280.StreetAddress", Rfc3280.StreetAddress),
   ("rfc3280.DirectoryString", Rfc3280.DirectoryString),
   ("rfc3280.DomainComponent", Rfc3280.DomainComponent),
   ("rfc3280.PDSName", Rfc3280.PDSName),
   ("rfc3280.PosteRestanteAddress", Rfc3280.PosteRestanteAddress),
   ("rfc3280.DistinguishedName", Rfc3280.DistinguishedName),
   ("rfc3280.CommonName", Rfc3280.CommonName),
   ("rfc3280.X520SerialNumber", Rfc3280.X520SerialNumber),
   ("rfc3280.TeletexOrganizationalUnitName", Rfc3280.TeletexOrganizationalUnitName),
   ("rfc3280.TeletexPersonalName", Rfc3280.TeletexPersonalName),
   ("rfc3280.TeletexDomainDefinedAttributes", Rfc3280.TeletexDomainDefinedAttributes),
   ("rfc3280.TBSCertList", Rfc3280.TBSCertList),
   ("rfc3280.PhysicalDeliveryCountryName", Rfc3280.PhysicalDeliveryCountryName),
   ("rfc3280.X520name", Rfc3280.X520name),
   ("rfc3280.TerminalType", Rfc3280.TerminalType),
   ("rfc3280.X520OrganizationalUnitName", Rfc3280.X520OrganizationalUnitName),
   ("rfc3280.X520LocalityName", Rfc3280.X520LocalityName),
   ("rfc3280.PhysicalDeliveryPersonalName", Rfc3280.PhysicalDeliveryPersonalName),
   ("rfc3280.PostalCode", Rfc3280.PostalCode),
   ("rfc3280.X520countryName", Rfc3280.X520countryName),
   ("rfc3280.PostOfficeBoxAddress", Rfc3280.PostOfficeBoxAddress),
   ("rfc3280.PhysicalDeliveryOfficeName", Rfc3280.PhysicalDeliveryOfficeName),
   ("rfc3280.CertificateList", Rfc3280.CertificateList),
   ("rfc3280.PhysicalDeliveryOfficeNumber", Rfc3280.PhysicalDeliveryOfficeNumber),
   ("rfc3280.TeletexOrganizationalUnitNames", Rfc3280.TeletexOrganizationalUnitNames),
   ("rfc3280.ExtensionORAddressComponents", Rfc3280.ExtensionORAddressComponents),
   ("rfc3280.X520CommonName", Rfc3280.X520CommonName),
   ("rfc3280.X520dnQualifier", Rfc3280.X520dnQualifier),
   ("rfc3280.Attribute", Rfc3280.Attribute),
   ("rfc3280.UnformattedPostalAddress", Rfc3280.UnformattedPostalAddress),
   ("rfc3280.UniquePostalName", Rfc3280.UniquePostalName),
   ("rfc3280.X520Pseudonym", Rfc3280.X520Pseudonym),
   ("rfc3280.EDIPartyName", Rfc3280.EDIPartyName),
   ("rfc3280.AnotherName", Rfc3280.AnotherName),
   ("rfc3280.GeneralName", Rfc3280.GeneralName),
   ("rfc3280.GeneralNames", Rfc3280.GeneralNames),
   ("rfc3280.IssuerAltName", Rfc3280.IssuerAltName),
   ("rfc3280.CertPolicyId", Rfc3280.CertPolicyId),
   ("rfc3280.PolicyMappings", Rfc3280.PolicyMappings),
   ("rfc3280.PolicyQualifierId", Rfc3280.PolicyQualifierId),
   ("rfc3280.SubjectDirectoryAttributes", Rfc3280.SubjectDirectoryAttributes),
   ("rfc3280.ReasonFlags", Rfc3280.ReasonFlags),
   ("rfc3280.DistributionPointName", Rfc3280.DistributionPointName),
   ("rfc3280.DistributionPoint", Rfc3280.DistributionPoint),
   ("rfc3280.PolicyQualifierInfo", Rfc3280.PolicyQualifierInfo),
   ("rfc3280.PolicyInformation", Rfc3280.PolicyInformation),
   ("rfc3280.CertificatePolicies", Rfc3280.CertificatePolicies),
   ("rfc3280.HoldInstructionCode", Rfc3280.HoldInstructionCode),
   ("rfc3280.KeyPurposeId", Rfc3280.KeyPurposeId),
   ("rfc3280.ExtKeyUsageSyntax", Rfc3280.ExtKeyUsageSyntax),
   ("rfc3280.SubjectAltName", Rfc3280.SubjectAltName),
   ("rfc3280.BasicConstraints", Rfc3280.BasicConstraints),
   ("rfc3280.SkipCerts", Rfc3280.SkipCerts),
   ("rfc3280.InhibitAnyPolicy", Rfc3280.InhibitAnyPolicy),
   ("rfc3280.CRLNumber", Rfc3280.CRLNumber),
   ("rfc3280.BaseCRLNumber", Rfc3280.BaseCRLNumber),
   ("rfc3280.KeyIdentifier", Rfc3280.KeyIdentifier),
   ("rfc3280.AuthorityKeyIdentifier", Rfc3280.AuthorityKeyIdentifier),
   ("rfc3280.CRLDistributionPoints", Rfc3280.CRLDistributionPoints),
   ("rfc3280.FreshestCRL", Rfc3280.FreshestCRL),
   ("rfc3280.CRLReason", Rfc3280.CRLReason),
   ("rfc3280.BaseDistance", Rfc3280.BaseDistance),
   ("rfc3280.GeneralSubtree", Rfc3280.GeneralSubtree),
   ("rfc3280.GeneralSubtrees", Rfc3280.GeneralSubtrees),
   ("rfc3280.NameConstraints", Rfc3280.NameConstraints),
   ("rfc3280.AccessDescription", Rfc3280.AccessDescription),
   ("rfc3280.AuthorityInfoAccessSyntax", Rfc3280.AuthorityInfoAccessSyntax),
   ("rfc3280.CPSuri", Rfc3280.CPSuri),
   ("rfc3280.DisplayText", Rfc3280.DisplayText),
   ("rfc3280.NoticeReference", Rfc3280.NoticeReference),
   ("rfc3280.UserNotice", Rfc3280.UserNotice),
   ("rfc3280.PrivateKeyUsagePeriod", Rfc3280.PrivateKeyUsagePeriod),
   ("rfc3280.CertificateIssuer", Rfc3280.CertificateIssuer),
   ("rfc3280.InvalidityDate", Rfc3280.InvalidityDate),
   ("rfc3280.SubjectInfoAccessSyntax", Rfc3280.SubjectInfoAccessSyntax),
   ("rfc3280.KeyUsage", Rfc3280.KeyUsage),
   ("rfc3280.PolicyConstraints", Rfc3280.PolicyConstraints),
   ("rfc3280.SubjectKeyIdentifier", Rfc3280.SubjectKeyIdentifier),
   ("rfc3280.IssuingDistributionPoint", Rfc3280.IssuingDistributionPoint)]

/-- pyasn1 instances rfc3280.py binds at module level. -/
def objects : List (String × Py.Obj) :=
  [("rfc3280.unformatted_postal_address", Rfc3280.unformatted_postal_address),
   ("rfc3280.ub_organizational_units", Rfc3280.ub_organizational_units),
   ("rfc3280.ub_organizational_unit_name_length", Rfc3280.ub_organizational_unit_name_length),
   ("rfc3280.id_at", Rfc3280.id_at),
   ("rfc3280.id_at_name", Rfc3280.id_at_name),
   ("rfc3280.ub_pds_parameter_length", Rfc3280.ub_pds_parameter_length),
   ("rfc3280.ub_organization_name_length", Rfc3280.ub_organization_name_length),
   ("rfc3280.ub_domain_defined_attribute_type_length", Rfc3280.ub_domain_defined_attribute_type_length),
   ("rfc3280.ub_domain_defined_attribute_value_length", Rfc3280.ub_domain_defined_attribute_value_length),
   ("rfc3280.id_pkix", Rfc3280.id_pkix),
   ("rfc3280.id_qt", Rfc3280.id_qt),
   ("rfc3280.ub_surname_length", Rfc3280.ub_surname_length),
   ("rfc3280.ub_e163_4_sub_address_length", Rfc3280.ub_e163_4_sub_address_length),
   ("rfc3280.teletex_common_name", Rfc3280.teletex_common_name),
   ("rfc3280.ub_country_name_alpha_length", Rfc3280.ub_country_name_alpha_length),
   ("rfc3280.ub_country_name_numeric_length", Rfc3280.ub_country_name_numeric_length),
   ("rfc3280.extension_OR_address_components", Rfc3280.extension_OR_address_components),
   ("rfc3280.id_at_dnQualifier", Rfc3280.id_at_dnQualifier),
   ("rfc3280.ub_e163_4_number_length", Rfc3280.ub_e163_4_number_length),
   ("rfc3280.terminal_type", Rfc3280.terminal_type),
   ("rfc3280.id_domainComponent", Rfc3280.id_domainComponent),
   ("rfc3280.ub_state_name", Rfc3280.ub_state_name),
   ("rfc3280.ub_organization_name", Rfc3280.ub_organization_name),
   ("rfc3280.ub_emailaddress_length", Rfc3280.ub_emailaddress_length),
   ("rfc3280.id_at_surname", Rfc3280.id_at_surname),
   ("rfc3280.ub_common_name_length", Rfc3280.ub_common_name_length),
   ("rfc3280.id_ad", Rfc3280.id_ad),
   ("rfc3280.ub_numeric_user_id_length", Rfc3280.ub_numeric_user_id_length),
   ("rfc3280.ub_domain_name_length", Rfc3280.ub_domain_name_length),
   ("rfc3280.ub_generation_qualifier_length", Rfc3280.ub_generation_qualifier_length),
   ("rfc3280.ub_given_name_length", Rfc3280.ub_given_name_length),
   ("rfc3280.ub_initials_length", Rfc3280.ub_initials_length),
   ("rfc3280.ub_terminal_id_length", Rfc3280.ub_terminal_id_length),
   ("rfc3280.ub_x121_address_length", Rfc3280.ub_x121_address_length),
   ("rfc3280.ub_domain_defined_attributes", Rfc3280.ub_domain_defined_attributes),
   ("rfc3280.ub_extension_attributes", Rfc3280.ub_extension_attributes),
   ("rfc3280.id_pe", Rfc3280.id_pe),
   ("rfc3280.ub_title", Rfc3280.ub_title),
   ("rfc3280.id_at_organizationalUnitName", Rfc3280.id_at_organizationalUnitName),
   ("rfc3280.physical_delivery_country_name", Rfc3280.physical_delivery_country_name),
   ("rfc3280.id_at_givenName", Rfc3280.id_at_givenName),
   ("rfc3280.id_qt_cps", Rfc3280.id_qt_cps),
   ("rfc3280.id_kp", Rfc3280.id_kp),
   ("rfc3280.id_at_initials", Rfc3280.id_at_initials),
   ("rfc3280.id_qt_unotice", Rfc3280.id_qt_unotice),
   ("rfc3280.ub_pds_name_length", Rfc3280.ub_pds_name_length),
   ("rfc3280.ub_serial_number", Rfc3280.ub_serial_number),
   ("rfc3280.id_at_generationQualifier", Rfc3280.id_at_generationQualifier),
   ("rfc3280.ub_organizational_unit_name", Rfc3280.ub_organizational_unit_name),
   ("rfc3280.id_ad_ocsp", Rfc3280.id_ad_ocsp),
   ("rfc3280.local_postal_attributes", Rfc3280.local_postal_attributes),
   ("rfc3280.pkcs_9", Rfc3280.pkcs_9),
   ("rfc3280.ub_name", Rfc3280.ub_name),
   ("rfc3280.id_emailAddress", Rfc3280.id_emailAddress),
   ("rfc3280.id_at_commonName", Rfc3280.id_at_commonName),
   ("rfc3280.pds_name", Rfc3280.pds_name),
   ("rfc3280.post_office_box_address", Rfc3280.post_office_box_address),
   ("rfc3280.ub_locality_name", Rfc3280.ub_locality_name),
   ("rfc3280.id_ad_timeStamping", Rfc3280.id_ad_timeStamping),
   ("rfc3280.id_at_countryName", Rfc3280.id_at_countryName),
   ("rfc3280.physical_delivery_personal_name", Rfc3280.physical_delivery_personal_name),
   ("rfc3280.teletex_personal_name", Rfc3280.teletex_personal_name),
   ("rfc3280.teletex_organizational_unit_names", Rfc3280.teletex_organizational_unit_names),
   ("rfc3280.ub_postal_code_length", Rfc3280.ub_postal_code_length),
   ("rfc3280.postal_code", Rfc3280.postal_code),
   ("rfc3280.id_ad_caRepository", Rfc3280.id_ad_caRepository),
   ("rfc3280.extension_physical_delivery_address_components", Rfc3280.extension_physical_delivery_address_components),
   ("rfc3280.id_at_title", Rfc3280.id_at_title),
   ("rfc3280.id_at_serialNumber", Rfc3280.id_at_serialNumber),
   ("rfc3280.id_ad_caIssuers", Rfc3280.id_ad_caIssuers),
   ("rfc3280.ub_integer_options", Rfc3280.ub_integer_options),
   ("rfc3280.physical_delivery_office_name", Rfc3280.physical_delivery_office_name),
   ("rfc3280.ub_common_name", Rfc3280.ub_common_name),
   ("rfc3280.ub_pseudonym", Rfc3280.ub_pseudonym),
   ("rfc3280.poste_restante_address", Rfc3280.poste_restante_address),
   ("rfc3280.id_at_organizationName", Rfc3280.id_at_organizationName),
   ("rfc3280.physical_delivery_office_number", Rfc3280.physical_delivery_office_number),
   ("rfc3280.id_at_pseudonym", Rfc3280.id_at_pseudonym),
   ("rfc3280.physical_delivery_organization_name", Rfc3280.physical_delivery_organization_name),
   ("rfc3280.id_at_stateOrProvinceName", Rfc3280.id_at_stateOrProvinceName),
   ("rfc3280.common_name", Rfc3280.common_name),
   ("rfc3280.id_at_localityName", Rfc3280.id_at_localityName),
   ("rfc3280.ub_match", Rfc3280.ub_match),
   ("rfc3280.ub_unformatted_address_length", Rfc3280.ub_unformatted_address_length),
   ("rfc3280.extended_network_address", Rfc3280.extended_network_address),
   ("rfc3280.unique_postal_name", Rfc3280.unique_postal_name),
   ("rfc3280.ub_pds_physical_address_lines", Rfc3280.ub_pds_physical_address_lines),
   ("rfc3280.teletex_organization_name", Rfc3280.teletex_organization_name),
   ("rfc3280.teletex_domain_defined_attributes", Rfc3280.teletex_domain_defined_attributes),
   ("rfc3280.street_address", Rfc3280.street_address),
   ("rfc3280.id_kp_OCSPSigning", Rfc3280.id_kp_OCSPSigning),
   ("rfc3280.id_ce", Rfc3280.id_ce),
   ("rfc3280.id_ce_certificatePolicies", Rfc3280.id_ce_certificatePolicies),
   ("rfc3280.id_ce_cRLDistributionPoints", Rfc3280.id_ce_cRLDistributionPoints),
   ("rfc3280.holdInstruction", Rfc3280.holdInstruction),
   ("rfc3280.id_ce_subjectDirectoryAttributes", Rfc3280.id_ce_subjectDirectoryAttributes),
   ("rfc3280.id_holdinstruction_callissuer", Rfc3280.id_holdinstruction_callissuer),
   ("rfc3280.anyPolicy", Rfc3280.anyPolicy),
   ("rfc3280.id_ce_subjectAltName", Rfc3280.id_ce_subjectAltName),
   ("rfc3280.id_kp_emailProtection", Rfc3280.id_kp_emailProtection),
   ("rfc3280.id_ce_keyUsage", Rfc3280.id_ce_keyUsage),
   ("rfc3280.id_ce_basicConstraints", Rfc3280.id_ce_basicConstraints),
   ("rfc3280.id_ce_nameConstraints", Rfc3280.id_ce_nameConstraints),
   ("rfc3280.id_kp_serverAuth", Rfc3280.id_kp_serverAuth),
   ("rfc3280.id_ce_freshestCRL", Rfc3280.id_ce_freshestCRL),
   ("rfc3280.id_ce_cRLReasons", Rfc3280.id_ce_cRLReasons),
   ("rfc3280.id_ce_inhibitAnyPolicy", Rfc3280.id_ce_inhibitAnyPolicy),
   ("rfc3280.id_pe_authorityInfoAccess", Rfc3280.id_pe_authorityInfoAccess),
   ("rfc3280.id_pe_subjectInfoAccess", Rfc3280.id_pe_subjectInfoAccess),
   ("rfc3280.id_ce_certificateIssuer", Rfc3280.id_ce_certificateIssuer),
   ("rfc3280.id_ce_invalidityDate", Rfc3280.id_ce_invalidityDate),
   ("rfc3280.id_ce_authorityKeyIdentifier", Rfc3280.id_ce_authorityKeyIdentifier),
   ("rfc3280.id_ce_issuingDistributionPoint", Rfc3280.id_ce_issuingDistributionPoint),
   ("rfc3280.id_ce_subjectKeyIdentifier", Rfc3280.id_ce_subjectKeyIdentifier),
   ("rfc3280.id_ce_extKeyUsage", Rfc3280.id_ce_extKeyUsage),
   ("rfc3280.anyExtendedKeyUsage", Rfc3280.anyExtendedKeyUsage),
   ("rfc3280.id_ce_privateKeyUsagePeriod", Rfc3280.id_ce_privateKeyUsagePeriod),
   ("rfc3280.id_ce_policyMappings", Rfc3280.id_ce_policyMappings),
   ("rfc3280.id_ce_cRLNumber", Rfc3280.id_ce_cRLNumber),
   ("rfc3280.id_ce_policyConstraints", Rfc3280.id_ce_policyConstraints),
   ("rfc3280.id_holdinstruction_none", Rfc3280.id_holdinstruction_none),
   ("rfc3280.id_holdinstruction_reject", Rfc3280.id_holdinstruction_reject),
   ("rfc3280.id_kp_timeStamping", Rfc3280.id_kp_timeStamping),
   ("rfc3280.id_kp_clientAuth", Rfc3280.id_kp_clientAuth),
   ("rfc3280.id_ce_deltaCRLIndicator", Rfc3280.id_ce_deltaCRLIndicator),
   ("rfc3280.id_ce_issuerAltName", Rfc3280.id_ce_issuerAltName),
   ("rfc3280.id_kp_codeSigning", Rfc3280.id_kp_codeSigning),
   ("rfc3280.id_ce_holdInstructionCode", Rfc3280.id_ce_holdInstructionCode)]

/-- pyasn1 instances rfc3280.py fills in by item assignment. -/
def protos : List (String × Py.Proto) :=
  []

/-- Every place of rfc3280.py that instantiates a class of the package: where, the class as it is
at that point, and the class as it is when the import has finished. -/
def snapshots : List Py.Snapshot :=
  [⟨"rfc3280.py:55", Rfc3280.OrganizationalUnitName, Rfc3280.OrganizationalUnitName⟩,
   ⟨"rfc3280.py:154", Rfc3280.Extension, Rfc3280.Extension⟩,
   ⟨"rfc3280.py:167", Rfc3280.AlgorithmIdentifier, Rfc3280.AlgorithmIdentifier⟩,
   ⟨"rfc3280.py:187", Rfc3280.Time, Rfc3280.Time⟩,
   ⟨"rfc3280.py:188", Rfc3280.Time, Rfc3280.Time⟩,
   ⟨"rfc3280.py:212", Rfc3280.AttributeType, Rfc3280.AttributeType⟩,
   ⟨"rfc3280.py:213", Rfc3280.AttributeValue, Rfc3280.AttributeValue⟩,
   ⟨"rfc3280.py:221", Rfc3280.AttributeTypeAndValue, Rfc3280.AttributeTypeAndValue⟩,
   ⟨"rfc3280.py:229", Rfc3280.RelativeDistinguishedName, Rfc3280.RelativeDistinguishedName⟩,
   ⟨"rfc3280.py:237", Rfc3280.RDNSequence, Rfc3280.RDNSequence⟩,
   ⟨"rfc3280.py:247", Rfc3280.Version, Rfc3280.Version⟩,
   ⟨"rfc3280.py:249", Rfc3280.CertificateSerialNumber, Rfc3280.CertificateSerialNumber⟩,
   ⟨"rfc3280.py:250", Rfc3280.AlgorithmIdentifier, Rfc3280.AlgorithmIdentifier⟩,
   ⟨"rfc3280.py:251", Rfc3280.Name, Rfc3280.Name⟩,
   ⟨"rfc3280.py:252", Rfc3280.Validity, Rfc3280.Validity⟩,
   ⟨"rfc3280.py:253", Rfc3280.Name, Rfc3280.Name⟩,
   ⟨"rfc3280.py:254", Rfc3280.SubjectPublicKeyInfo, Rfc3280.SubjectPublicKeyInfo⟩,
   ⟨"rfc3280.py:255", Rfc3280.UniqueIdentifier, Rfc3280.UniqueIdentifier⟩,
   ⟨"rfc3280.py:257", Rfc3280.UniqueIdentifier, Rfc3280.UniqueIdentifier⟩,
   ⟨"rfc3280.py:260", Rfc3280.Extensions, Rfc3280.Extensions⟩,
   ⟨"rfc3280.py:269", Rfc3280.TBSCertificate, Rfc3280.TBSCertificate⟩,
   ⟨"rfc3280.py:270", Rfc3280.AlgorithmIdentifier, Rfc3280.AlgorithmIdentifier⟩,
   ⟨"rfc3280.py:325", Rfc3280.PresentationAddress, Rfc3280.PresentationAddress⟩,
   ⟨"rfc3280.py:484", Rfc3280.CountryName, Rfc3280.CountryName⟩,
   ⟨"rfc3280.py:485", Rfc3280.AdministrationDomainName, Rfc3280.AdministrationDomainName⟩,
   ⟨"rfc3280.py:486", Rfc3280.NetworkAddress, Rfc3280.NetworkAddress⟩,
   ⟨"rfc3280.py:488", Rfc3280.TerminalIdentifier, Rfc3280.TerminalIdentifier⟩,
   ⟨"rfc3280.py:490", Rfc3280.PrivateDomainName, Rfc3280.PrivateDomainName⟩,
   ⟨"rfc3280.py:492", Rfc3280.OrganizationName, Rfc3280.OrganizationName⟩,
   ⟨"rfc3280.py:494", Rfc3280.NumericUserIdentifier, Rfc3280.NumericUserIdentifier⟩,
   ⟨"rfc3280.py:496", Rfc3280.PersonalName, Rfc3280.PersonalName⟩,
   ⟨"rfc3280.py:498", Rfc3280.OrganizationalUnitNames, Rfc3280.OrganizationalUnitNames⟩,
   ⟨"rfc3280.py:521", Rfc3280.BuiltInDomainDefinedAttribute, Rfc3280.BuiltInDomainDefinedAttribute⟩,
   ⟨"rfc3280.py:544", Rfc3280.ExtensionAttribute, Rfc3280.ExtensionAttribute⟩,
   ⟨"rfc3280.py:553", Rfc3280.BuiltInStandardAttributes, Rfc3280.BuiltInStandardAttributes⟩,
   ⟨"rfc3280.py:554", Rfc3280.BuiltInDomainDefinedAttributes, Rfc3280.BuiltInDomainDefinedAttributes⟩,
   ⟨"rfc3280.py:555", Rfc3280.ExtensionAttributes, Rfc3280.ExtensionAttributes⟩,
   ⟨"rfc3280.py:708", Rfc3280.TeletexDomainDefinedAttribute, Rfc3280.TeletexDomainDefinedAttribute⟩,
   ⟨"rfc3280.py:717", Rfc3280.Version, Rfc3280.Version⟩,
   ⟨"rfc3280.py:718", Rfc3280.AlgorithmIdentifier, Rfc3280.AlgorithmIdentifier⟩,
   ⟨"rfc3280.py:719", Rfc3280.Name, Rfc3280.Name⟩,
   ⟨"rfc3280.py:720", Rfc3280.Time, Rfc3280.Time⟩,
   ⟨"rfc3280.py:721", Rfc3280.Time, Rfc3280.Time⟩,
   ⟨"rfc3280.py:724", Rfc3280.CertificateSerialNumber, Rfc3280.CertificateSerialNumber⟩,
   ⟨"rfc3280.py:725", Rfc3280.Time, Rfc3280.Time⟩,
   ⟨"rfc3280.py:726", Rfc3280.Extensions, Rfc3280.Extensions⟩,
   ⟨"rfc3280.py:730", Rfc3280.Extensions, Rfc3280.Extensions⟩,
   ⟨"rfc3280.py:893", Rfc3280.TBSCertList, Rfc3280.TBSCertList⟩,
   ⟨"rfc3280.py:894", Rfc3280.AlgorithmIdentifier, Rfc3280.AlgorithmIdentifier⟩,
   ⟨"rfc3280.py:907", Rfc3280.TeletexOrganizationalUnitName, Rfc3280.TeletexOrganizationalUnitName⟩,
   ⟨"rfc3280.py:970", Rfc3280.AttributeType, Rfc3280.AttributeType⟩,
   ⟨"rfc3280.py:971", Rfc3280.AttributeValue, Rfc3280.AttributeValue⟩,
   ⟨"rfc3280.py:1032", Rfc3280.DirectoryString__1, Rfc3280.DirectoryString__1⟩,
   ⟨"rfc3280.py:1035", Rfc3280.DirectoryString__1, Rfc3280.DirectoryString__1⟩,
   ⟨"rfc3280.py:1055", Rfc3280.AnotherName, Rfc3280.AnotherName⟩,
   ⟨"rfc3280.py:1061", Rfc3280.ORAddress, Rfc3280.ORAddress⟩,
   ⟨"rfc3280.py:1063", Rfc3280.Name, Rfc3280.Name⟩,
   ⟨"rfc3280.py:1065", Rfc3280.EDIPartyName, Rfc3280.EDIPartyName⟩,
   ⟨"rfc3280.py:1079", Rfc3280.GeneralName, Rfc3280.GeneralName⟩,
   ⟨"rfc3280.py:1099", Rfc3280.CertPolicyId, Rfc3280.CertPolicyId⟩,
   ⟨"rfc3280.py:1100", Rfc3280.CertPolicyId, Rfc3280.CertPolicyId⟩,
   ⟨"rfc3280.py:1121", Rfc3280.Attribute, Rfc3280.Attribute⟩,
   ⟨"rfc3280.py:1154", Rfc3280.GeneralNames, Rfc3280.GeneralNames⟩,
   ⟨"rfc3280.py:1155", Rfc3280.RelativeDistinguishedName, Rfc3280.RelativeDistinguishedName⟩,
   ⟨"rfc3280.py:1165", Rfc3280.DistributionPointName, Rfc3280.DistributionPointName⟩,
   ⟨"rfc3280.py:1167", Rfc3280.ReasonFlags, Rfc3280.ReasonFlags⟩,
   ⟨"rfc3280.py:1169", Rfc3280.GeneralNames, Rfc3280.GeneralNames⟩,
   ⟨"rfc3280.py:1181", Rfc3280.PolicyQualifierId, Rfc3280.PolicyQualifierId⟩,
   ⟨"rfc3280.py:1191", Rfc3280.CertPolicyId, Rfc3280.CertPolicyId⟩,
   ⟨"rfc3280.py:1192", Rfc3280.PolicyQualifierInfo, Rfc3280.PolicyQualifierInfo⟩,
   ⟨"rfc3280.py:1200", Rfc3280.PolicyInformation, Rfc3280.PolicyInformation⟩,
   ⟨"rfc3280.py:1218", Rfc3280.KeyPurposeId, Rfc3280.KeyPurposeId⟩,
   ⟨"rfc3280.py:1268", Rfc3280.KeyIdentifier, Rfc3280.KeyIdentifier⟩,
   ⟨"rfc3280.py:1270", Rfc3280.GeneralNames, Rfc3280.GeneralNames⟩,
   ⟨"rfc3280.py:1272", Rfc3280.CertificateSerialNumber, Rfc3280.CertificateSerialNumber⟩,
   ⟨"rfc3280.py:1289", Rfc3280.DistributionPoint, Rfc3280.DistributionPoint⟩,
   ⟨"rfc3280.py:1330", Rfc3280.GeneralName, Rfc3280.GeneralName⟩,
   ⟨"rfc3280.py:1331", Rfc3280.BaseDistance, Rfc3280.BaseDistance⟩,
   ⟨"rfc3280.py:1333", Rfc3280.BaseDistance, Rfc3280.BaseDistance⟩,
   ⟨"rfc3280.py:1342", Rfc3280.GeneralSubtree, Rfc3280.GeneralSubtree⟩,
   ⟨"rfc3280.py:1351", Rfc3280.GeneralSubtrees, Rfc3280.GeneralSubtrees⟩,
   ⟨"rfc3280.py:1353", Rfc3280.GeneralSubtrees, Rfc3280.GeneralSubtrees⟩,
   ⟨"rfc3280.py:1383", Rfc3280.GeneralName, Rfc3280.GeneralName⟩,
   ⟨"rfc3280.py:1391", Rfc3280.AccessDescription, Rfc3280.AccessDescription⟩,
   ⟨"rfc3280.py:1419", Rfc3280.DisplayText, Rfc3280.DisplayText⟩,
   ⟨"rfc3280.py:1429", Rfc3280.NoticeReference, Rfc3280.NoticeReference⟩,
   ⟨"rfc3280.py:1430", Rfc3280.DisplayText, Rfc3280.DisplayText⟩,
   ⟨"rfc3280.py:1460", Rfc3280.AccessDescription, Rfc3280.AccessDescription⟩,
   ⟨"rfc3280.py:1505", Rfc3280.SkipCerts, Rfc3280.SkipCerts⟩,
   ⟨"rfc3280.py:1507", Rfc3280.SkipCerts, Rfc3280.SkipCerts⟩,
   ⟨"rfc3280.py:1531", Rfc3280.DistributionPointName, Rfc3280.DistributionPointName⟩,
   ⟨"rfc3280.py:1537", Rfc3280.ReasonFlags, Rfc3280.ReasonFlags⟩]

/-- Functions rfc3280.py defines. -/
def builders : List (String × (List Py.OidArg → Py.Obj)) :=
  [("rfc3280._OID", Rfc3280._OID)]

def asModule : Py.Module :=
  { id := (Py.mod 13 "rfc3280"), imports := imports, effects := effects, classes := classes, objects := objects, protos := protos, snapshots := snapshots, builders := builders }

end Rfc3280
end Verif
