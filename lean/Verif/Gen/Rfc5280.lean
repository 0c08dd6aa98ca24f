import Verif.Py.Obj

/-! Transcription of /repo/pyasn1_modules/rfc5280.py (generated by tools/gen.py). -/

namespace Verif
namespace Rfc5280

/-- rfc5280.py:27 -/
def MAX : Py.Bound :=
  .inf

/-- rfc5280.py:30-38 `def _buildOid(*components)` -/
def _buildOid (components : List Py.OidArg) : Py.Obj :=
  match Py.oidLoop [] components with
  | some output => Py.univ.ObjectIdentifier.call.callArcs output
  | none => .fail "OID without value"

/-- rfc5280.py:41 -/
def ub_e163_4_sub_address_length : Py.Obj :=
  (Py.univ.Integer.call.callInt 40)

/-- rfc5280.py:43 -/
def ub_e163_4_number_length : Py.Obj :=
  (Py.univ.Integer.call.callInt 15)

/-- rfc5280.py:45 -/
def unformatted_postal_address : Py.Obj :=
  (Py.univ.Integer.call.callInt 16)

/-- rfc5280.py:48-49 `class TerminalType(univ.Integer)` -/
def TerminalType__0 : Py.Obj :=
  Py.univ.Integer

/-- rfc5280.py:52-59 `TerminalType.namedValues = ...` -/
def TerminalType : Py.Obj :=
  Rfc5280.TerminalType__0.setNamedValues (Py.NamedValues [("telex", 3), ("teletex", 4), ("g3-facsimile", 5), ("g4-facsimile", 6), ("ia5-terminal", 7), ("videotex", 8)])

/-- rfc5280.py:62-63 `class Extension(univ.Sequence)` -/
def Extension__0 : Py.Obj :=
  Py.univ.Sequence

/-- rfc5280.py:66-70 `Extension.componentType = ...` -/
def Extension : Py.Obj :=
  Rfc5280.Extension__0.setComponentType (Py.NamedTypes [
    Py.NamedType "extnID" Py.univ.ObjectIdentifier.call,
    Py.DefaultedNamedType "critical" (Py.univ.Boolean.call.callInt 0),
    Py.NamedType "extnValue" Py.univ.OctetString.call])

/-- rfc5280.py:73-74 `class Extensions(univ.SequenceOf)` -/
def Extensions__0 : Py.Obj :=
  Py.univ.SequenceOf

/-- rfc5280.py:77 `Extensions.componentType = ...` -/
def Extensions__1 : Py.Obj :=
  Rfc5280.Extensions__0.setComponentTypeOf Rfc5280.Extension.call

/-- rfc5280.py:78 `Extensions.sizeSpec = ...` -/
def Extensions : Py.Obj :=
  Rfc5280.Extensions__1.setSizeSpec (Py.ValueSizeConstraint (.fin 1) Rfc5280.MAX)

/-- rfc5280.py:80 -/
def physical_delivery_personal_name : Py.Obj :=
  (Py.univ.Integer.call.callInt 13)

/-- rfc5280.py:82 -/
def ub_unformatted_address_length : Py.Obj :=
  (Py.univ.Integer.call.callInt 180)

/-- rfc5280.py:84 -/
def ub_pds_parameter_length : Py.Obj :=
  (Py.univ.Integer.call.callInt 30)

/-- rfc5280.py:86 -/
def ub_pds_physical_address_lines : Py.Obj :=
  (Py.univ.Integer.call.callInt 6)

/-- rfc5280.py:89-90 `class UnformattedPostalAddress(univ.Set)` -/
def UnformattedPostalAddress__0 : Py.Obj :=
  Py.univ.Set

/-- rfc5280.py:93-98 `UnformattedPostalAddress.componentType = ...` -/
def UnformattedPostalAddress : Py.Obj :=
  Rfc5280.UnformattedPostalAddress__0.setComponentType (Py.NamedTypes [
    Py.OptionalNamedType "printable-address" (Py.univ.SequenceOf.call.setComponentTypeOf (Py.char.PrintableString.call.addSubtypeSpec (Py.ValueSizeConstraint (.fin 1) Rfc5280.ub_pds_parameter_length.bound))),
    Py.OptionalNamedType "teletex-string" (Py.char.TeletexString.call.addSubtypeSpec (Py.ValueSizeConstraint (.fin 1) Rfc5280.ub_unformatted_address_length.bound))])

/-- rfc5280.py:100 -/
def ub_organization_name : Py.Obj :=
  (Py.univ.Integer.call.callInt 64)

/-- rfc5280.py:103-104 `class X520OrganizationName(univ.Choice)` -/
def X520OrganizationName__0 : Py.Obj :=
  Py.univ.Choice

/-- rfc5280.py:107-118 `X520OrganizationName.componentType = ...` -/
def X520OrganizationName : Py.Obj :=
  Rfc5280.X520OrganizationName__0.setComponentType (Py.NamedTypes [
    Py.NamedType "teletexString" (Py.char.TeletexString.call.addSubtypeSpec (Py.ValueSizeConstraint (.fin 1) Rfc5280.ub_organization_name.bound)),
    Py.NamedType "printableString" (Py.char.PrintableString.call.addSubtypeSpec (Py.ValueSizeConstraint (.fin 1) Rfc5280.ub_organization_name.bound)),
    Py.NamedType "universalString" (Py.char.UniversalString.call.addSubtypeSpec (Py.ValueSizeConstraint (.fin 1) Rfc5280.ub_organization_name.bound)),
    Py.NamedType "utf8String" (Py.char.UTF8String.call.addSubtypeSpec (Py.ValueSizeConstraint (.fin 1) Rfc5280.ub_organization_name.bound)),
    Py.NamedType "bmpString" (Py.char.BMPString.call.addSubtypeSpec (Py.ValueSizeConstraint (.fin 1) Rfc5280.ub_organization_name.bound))])

/-- rfc5280.py:120 -/
def ub_x121_address_length : Py.Obj :=
  (Py.univ.Integer.call.callInt 16)

/-- rfc5280.py:122 -/
def pds_name : Py.Obj :=
  (Py.univ.Integer.call.callInt 7)

/-- rfc5280.py:124 -/
def id_pkix : Py.Obj :=
  (Rfc5280._buildOid [.num 1, .num 3, .num 6, .num 1, .num 5, .num 5, .num 7])

/-- rfc5280.py:126 -/
def id_kp : Py.Obj :=
  (Rfc5280._buildOid [.oid Rfc5280.id_pkix, .num 3])

/-- rfc5280.py:128 -/
def ub_postal_code_length : Py.Obj :=
  (Py.univ.Integer.call.callInt 16)

/-- rfc5280.py:131-132 `class PostalCode(univ.Choice)` -/
def PostalCode__0 : Py.Obj :=
  Py.univ.Choice

/-- rfc5280.py:135-140 `PostalCode.componentType = ...` -/
def PostalCode : Py.Obj :=
  Rfc5280.PostalCode__0.setComponentType (Py.NamedTypes [
    Py.NamedType "numeric-code" (Py.char.NumericString.call.addSubtypeSpec (Py.ValueSizeConstraint (.fin 1) Rfc5280.ub_postal_code_length.bound)),
    Py.NamedType "printable-code" (Py.char.PrintableString.call.addSubtypeSpec (Py.ValueSizeConstraint (.fin 1) Rfc5280.ub_postal_code_length.bound))])

/-- rfc5280.py:142 -/
def ub_generation_qualifier_length : Py.Obj :=
  (Py.univ.Integer.call.callInt 3)

/-- rfc5280.py:144 -/
def unique_postal_name : Py.Obj :=
  (Py.univ.Integer.call.callInt 20)

/-- rfc5280.py:147-148 `class DomainComponent(char.IA5String)` -/
def DomainComponent : Py.Obj :=
  Py.char.IA5String

/-- rfc5280.py:151 -/
def ub_domain_defined_attribute_value_length : Py.Obj :=
  (Py.univ.Integer.call.callInt 128)

/-- rfc5280.py:153 -/
def ub_match : Py.Obj :=
  (Py.univ.Integer.call.callInt 128)

/-- rfc5280.py:155 -/
def id_at : Py.Obj :=
  (Rfc5280._buildOid [.num 2, .num 5, .num 4])

/-- rfc5280.py:158-159 `class AttributeType(univ.ObjectIdentifier)` -/
def AttributeType : Py.Obj :=
  Py.univ.ObjectIdentifier

/-- rfc5280.py:162 -/
def id_at_organizationalUnitName : Py.Obj :=
  (Rfc5280._buildOid [.oid Rfc5280.id_at, .num 11])

/-- rfc5280.py:164 -/
def terminal_type : Py.Obj :=
  (Py.univ.Integer.call.callInt 23)

/-- rfc5280.py:167-168 `class PDSParameter(univ.Set)` -/
def PDSParameter__0 : Py.Obj :=
  Py.univ.Set

/-- rfc5280.py:171-176 `PDSParameter.componentType = ...` -/
def PDSParameter : Py.Obj :=
  Rfc5280.PDSParameter__0.setComponentType (Py.NamedTypes [
    Py.OptionalNamedType "printable-string" (Py.char.PrintableString.call.addSubtypeSpec (Py.ValueSizeConstraint (.fin 1) Rfc5280.ub_pds_parameter_length.bound)),
    Py.OptionalNamedType "teletex-string" (Py.char.TeletexString.call.addSubtypeSpec (Py.ValueSizeConstraint (.fin 1) Rfc5280.ub_pds_parameter_length.bound))])

/-- rfc5280.py:179-180 `class PhysicalDeliveryPersonalName(PDSParameter)` -/
def PhysicalDeliveryPersonalName : Py.Obj :=
  Rfc5280.PDSParameter

/-- rfc5280.py:183 -/
def ub_surname_length : Py.Obj :=
  (Py.univ.Integer.call.callInt 40)

/-- rfc5280.py:185 -/
def id_ad : Py.Obj :=
  (Rfc5280._buildOid [.oid Rfc5280.id_pkix, .num 48])

/-- rfc5280.py:187 -/
def ub_domain_defined_attribute_type_length : Py.Obj :=
  (Py.univ.Integer.call.callInt 8)

/-- rfc5280.py:190-191 `class TeletexDomainDefinedAttribute(univ.Sequence)` -/
def TeletexDomainDefinedAttribute__0 : Py.Obj :=
  Py.univ.Sequence

/-- rfc5280.py:194-199 `TeletexDomainDefinedAttribute.componentType = ...` -/
def TeletexDomainDefinedAttribute : Py.Obj :=
  Rfc5280.TeletexDomainDefinedAttribute__0.setComponentType (Py.NamedTypes [
    Py.NamedType "type" (Py.char.TeletexString.call.addSubtypeSpec (Py.ValueSizeConstraint (.fin 1) Rfc5280.ub_domain_defined_attribute_type_length.bound)),
    Py.NamedType "value" (Py.char.TeletexString.call.addSubtypeSpec (Py.ValueSizeConstraint (.fin 1) Rfc5280.ub_domain_defined_attribute_value_length.bound))])

/-- rfc5280.py:201 -/
def ub_domain_defined_attributes : Py.Obj :=
  (Py.univ.Integer.call.callInt 4)

/-- rfc5280.py:204-205 `class TeletexDomainDefinedAttributes(univ.SequenceOf)` -/
def TeletexDomainDefinedAttributes__0 : Py.Obj :=
  Py.univ.SequenceOf

/-- rfc5280.py:208 `TeletexDomainDefinedAttributes.componentType = ...` -/
def TeletexDomainDefinedAttributes__1 : Py.Obj :=
  Rfc5280.TeletexDomainDefinedAttributes__0.setComponentTypeOf Rfc5280.TeletexDomainDefinedAttribute.call

/-- rfc5280.py:209 `TeletexDomainDefinedAttributes.sizeSpec = ...` -/
def TeletexDomainDefinedAttributes : Py.Obj :=
  Rfc5280.TeletexDomainDefinedAttributes__1.setSizeSpec (Py.ValueSizeConstraint (.fin 1) Rfc5280.ub_domain_defined_attributes.bound)

/-- rfc5280.py:211 -/
def extended_network_address : Py.Obj :=
  (Py.univ.Integer.call.callInt 22)

/-- rfc5280.py:213 -/
def ub_locality_name : Py.Obj :=
  (Py.univ.Integer.call.callInt 128)

/-- rfc5280.py:216-217 `class X520LocalityName(univ.Choice)` -/
def X520LocalityName__0 : Py.Obj :=
  Py.univ.Choice

/-- rfc5280.py:220-231 `X520LocalityName.componentType = ...` -/
def X520LocalityName : Py.Obj :=
  Rfc5280.X520LocalityName__0.setComponentType (Py.NamedTypes [
    Py.NamedType "teletexString" (Py.char.TeletexString.call.addSubtypeSpec (Py.ValueSizeConstraint (.fin 1) Rfc5280.ub_locality_name.bound)),
    Py.NamedType "printableString" (Py.char.PrintableString.call.addSubtypeSpec (Py.ValueSizeConstraint (.fin 1) Rfc5280.ub_locality_name.bound)),
    Py.NamedType "universalString" (Py.char.UniversalString.call.addSubtypeSpec (Py.ValueSizeConstraint (.fin 1) Rfc5280.ub_locality_name.bound)),
    Py.NamedType "utf8String" (Py.char.UTF8String.call.addSubtypeSpec (Py.ValueSizeConstraint (.fin 1) Rfc5280.ub_locality_name.bound)),
    Py.NamedType "bmpString" (Py.char.BMPString.call.addSubtypeSpec (Py.ValueSizeConstraint (.fin 1) Rfc5280.ub_locality_name.bound))])

/-- rfc5280.py:233 -/
def teletex_organization_name : Py.Obj :=
  (Py.univ.Integer.call.callInt 3)

/-- rfc5280.py:235 -/
def ub_given_name_length : Py.Obj :=
  (Py.univ.Integer.call.callInt 16)

/-- rfc5280.py:237 -/
def ub_initials_length : Py.Obj :=
  (Py.univ.Integer.call.callInt 5)

/-- rfc5280.py:240-241 `class PersonalName(univ.Set)` -/
def PersonalName__0 : Py.Obj :=
  Py.univ.Set

/-- rfc5280.py:244-257 `PersonalName.componentType = ...` -/
def PersonalName : Py.Obj :=
  Rfc5280.PersonalName__0.setComponentType (Py.NamedTypes [
    Py.NamedType "surname" ((Py.char.PrintableString.call.addSubtypeSpec (Py.ValueSizeConstraint (.fin 1) Rfc5280.ub_surname_length.bound)).implicitTag (Py.Tag .context false 0)),
    Py.OptionalNamedType "given-name" ((Py.char.PrintableString.call.addSubtypeSpec (Py.ValueSizeConstraint (.fin 1) Rfc5280.ub_given_name_length.bound)).implicitTag (Py.Tag .context false 1)),
    Py.OptionalNamedType "initials" ((Py.char.PrintableString.call.addSubtypeSpec (Py.ValueSizeConstraint (.fin 1) Rfc5280.ub_initials_length.bound)).implicitTag (Py.Tag .context false 2)),
    Py.OptionalNamedType "generation-qualifier" ((Py.char.PrintableString.call.addSubtypeSpec (Py.ValueSizeConstraint (.fin 1) Rfc5280.ub_generation_qualifier_length.bound)).implicitTag (Py.Tag .context false 3))])

/-- rfc5280.py:259 -/
def ub_organizational_unit_name_length : Py.Obj :=
  (Py.univ.Integer.call.callInt 32)

/-- rfc5280.py:262-263 `class OrganizationalUnitName(char.PrintableString)` -/
def OrganizationalUnitName__0 : Py.Obj :=
  Py.char.PrintableString

/-- rfc5280.py:266 `OrganizationalUnitName.subtypeSpec = ...` -/
def OrganizationalUnitName : Py.Obj :=
  Rfc5280.OrganizationalUnitName__0.setSubtypeSpec (Py.ValueSizeConstraint (.fin 1) Rfc5280.ub_organizational_unit_name_length.bound)

/-- rfc5280.py:268 -/
def id_at_generationQualifier : Py.Obj :=
  (Rfc5280._buildOid [.oid Rfc5280.id_at, .num 44])

/-- rfc5280.py:271-272 `class Version(univ.Integer)` -/
def Version__0 : Py.Obj :=
  Py.univ.Integer

/-- rfc5280.py:275-279 `Version.namedValues = ...` -/
def Version : Py.Obj :=
  Rfc5280.Version__0.setNamedValues (Py.NamedValues [("v1", 0), ("v2", 1), ("v3", 2)])

/-- rfc5280.py:282-283 `class CertificateSerialNumber(univ.Integer)` -/
def CertificateSerialNumber : Py.Obj :=
  Py.univ.Integer

/-- rfc5280.py:286 -/
def algorithmIdentifierMap : Py.Entries :=
  []

/-- rfc5280.py:289-295 `class AlgorithmIdentifier(univ.Sequence)` -/
def AlgorithmIdentifier : Py.Obj :=
  Py.univ.Sequence.setComponentType (Py.NamedTypes [
    Py.NamedType "algorithm" Py.univ.ObjectIdentifier.call,
    Py.OptionalNamedType "parameters" Py.univ.Any.call (openType := some (Py.OpenType "algorithm" (Py.map 3 "rfc5280.algorithmIdentifierMap")))])

/-- rfc5280.py:298-299 `class Time(univ.Choice)` -/
def Time__0 : Py.Obj :=
  Py.univ.Choice

/-- rfc5280.py:302-305 `Time.componentType = ...` -/
def Time : Py.Obj :=
  Rfc5280.Time__0.setComponentType (Py.NamedTypes [
    Py.NamedType "utcTime" Py.useful.UTCTime.call,
    Py.NamedType "generalTime" Py.useful.GeneralizedTime.call])

/-- rfc5280.py:308-309 `class AttributeValue(univ.Any)` -/
def AttributeValue : Py.Obj :=
  Py.univ.Any

/-- rfc5280.py:312 -/
def certificateAttributesMap : Py.Entries :=
  []

/-- rfc5280.py:315-322 `class AttributeTypeAndValue(univ.Sequence)` -/
def AttributeTypeAndValue : Py.Obj :=
  Py.univ.Sequence.setComponentType (Py.NamedTypes [
    Py.NamedType "type" Rfc5280.AttributeType.call,
    Py.NamedType "value" Rfc5280.AttributeValue.call (openType := some (Py.OpenType "type" (Py.map 4 "rfc5280.certificateAttributesMap")))])

/-- rfc5280.py:325-326 `class RelativeDistinguishedName(univ.SetOf)` -/
def RelativeDistinguishedName__0 : Py.Obj :=
  Py.univ.SetOf

/-- rfc5280.py:329 `RelativeDistinguishedName.componentType = ...` -/
def RelativeDistinguishedName__1 : Py.Obj :=
  Rfc5280.RelativeDistinguishedName__0.setComponentTypeOf Rfc5280.AttributeTypeAndValue.call

/-- rfc5280.py:330 `RelativeDistinguishedName.sizeSpec = ...` -/
def RelativeDistinguishedName : Py.Obj :=
  Rfc5280.RelativeDistinguishedName__1.setSizeSpec (Py.ValueSizeConstraint (.fin 1) Rfc5280.MAX)

/-- rfc5280.py:333-334 `class RDNSequence(univ.SequenceOf)` -/
def RDNSequence__0 : Py.Obj :=
  Py.univ.SequenceOf

/-- rfc5280.py:337 `RDNSequence.componentType = ...` -/
def RDNSequence : Py.Obj :=
  Rfc5280.RDNSequence__0.setComponentTypeOf Rfc5280.RelativeDistinguishedName.call

/-- rfc5280.py:340-341 `class Name(univ.Choice)` -/
def Name__0 : Py.Obj :=
  Py.univ.Choice

/-- rfc5280.py:344-346 `Name.componentType = ...` -/
def Name : Py.Obj :=
  Rfc5280.Name__0.setComponentType (Py.NamedTypes [
    Py.NamedType "rdnSequence" Rfc5280.RDNSequence.call])

/-- rfc5280.py:349-350 `class TBSCertList(univ.Sequence)` -/
def TBSCertList__0 : Py.Obj :=
  Py.univ.Sequence

/-- rfc5280.py:353-372 `TBSCertList.componentType = ...` -/
def TBSCertList : Py.Obj :=
  Rfc5280.TBSCertList__0.setComponentType (Py.NamedTypes [
    Py.OptionalNamedType "version" Rfc5280.Version.call,
    Py.NamedType "signature" Rfc5280.AlgorithmIdentifier.call,
    Py.NamedType "issuer" Rfc5280.Name.call,
    Py.NamedType "thisUpdate" Rfc5280.Time.call,
    Py.OptionalNamedType "nextUpdate" Rfc5280.Time.call,
    Py.OptionalNamedType "revokedCertificates" (Py.univ.SequenceOf.call.setComponentTypeOf (Py.univ.Sequence.call.setComponentType (Py.NamedTypes [
    Py.NamedType "userCertificate" Rfc5280.CertificateSerialNumber.call,
    Py.NamedType "revocationDate" Rfc5280.Time.call,
    Py.OptionalNamedType "crlEntryExtensions" Rfc5280.Extensions.call]))),
    Py.OptionalNamedType "crlExtensions" (Rfc5280.Extensions.call.explicitTag (Py.Tag .context false 0))])

/-- rfc5280.py:375-376 `class CertificateList(univ.Sequence)` -/
def CertificateList__0 : Py.Obj :=
  Py.univ.Sequence

/-- rfc5280.py:379-383 `CertificateList.componentType = ...` -/
def CertificateList : Py.Obj :=
  Rfc5280.CertificateList__0.setComponentType (Py.NamedTypes [
    Py.NamedType "tbsCertList" Rfc5280.TBSCertList.call,
    Py.NamedType "signatureAlgorithm" Rfc5280.AlgorithmIdentifier.call,
    Py.NamedType "signature" Py.univ.BitString.call])

/-- rfc5280.py:386-387 `class PhysicalDeliveryOfficeName(PDSParameter)` -/
def PhysicalDeliveryOfficeName : Py.Obj :=
  Rfc5280.PDSParameter

/-- rfc5280.py:390 -/
def ub_extension_attributes : Py.Obj :=
  (Py.univ.Integer.call.callInt 256)

/-- rfc5280.py:392-393 -/
def certificateExtensionsMap : Py.Entries :=
  []

/-- rfc5280.py:395-396 -/
def oraddressExtensionAttributeMap : Py.Entries :=
  []

/-- rfc5280.py:399-408 `class ExtensionAttribute(univ.Sequence)` -/
def ExtensionAttribute : Py.Obj :=
  Py.univ.Sequence.setComponentType (Py.NamedTypes [
    Py.NamedType "extension-attribute-type" ((Py.univ.Integer.call.addSubtypeSpec (Py.ValueRangeConstraint (.fin 0) Rfc5280.ub_extension_attributes.bound)).implicitTag (Py.Tag .context false 0)),
    Py.NamedType "extension-attribute-value" (Py.univ.Any.call.explicitTag (Py.Tag .context false 1)) (openType := some (Py.OpenType "extension-attribute-type" (Py.map 5 "rfc5280.oraddressExtensionAttributeMap")))])

/-- rfc5280.py:410 -/
def id_qt : Py.Obj :=
  (Rfc5280._buildOid [.oid Rfc5280.id_pkix, .num 2])

/-- rfc5280.py:412 -/
def id_qt_cps : Py.Obj :=
  (Rfc5280._buildOid [.oid Rfc5280.id_qt, .num 1])

/-- rfc5280.py:414 -/
def id_at_stateOrProvinceName : Py.Obj :=
  (Rfc5280._buildOid [.oid Rfc5280.id_at, .num 8])

/-- rfc5280.py:416 -/
def id_at_title : Py.Obj :=
  (Rfc5280._buildOid [.oid Rfc5280.id_at, .num 12])

/-- rfc5280.py:418 -/
def id_at_serialNumber : Py.Obj :=
  (Rfc5280._buildOid [.oid Rfc5280.id_at, .num 5])

/-- rfc5280.py:421-422 `class X520dnQualifier(char.PrintableString)` -/
def X520dnQualifier : Py.Obj :=
  Py.char.PrintableString

/-- rfc5280.py:425-426 `class PosteRestanteAddress(PDSParameter)` -/
def PosteRestanteAddress : Py.Obj :=
  Rfc5280.PDSParameter

/-- rfc5280.py:429 -/
def poste_restante_address : Py.Obj :=
  (Py.univ.Integer.call.callInt 19)

/-- rfc5280.py:432-433 `class UniqueIdentifier(univ.BitString)` -/
def UniqueIdentifier : Py.Obj :=
  Py.univ.BitString

/-- rfc5280.py:436-437 `class Validity(univ.Sequence)` -/
def Validity__0 : Py.Obj :=
  Py.univ.Sequence

/-- rfc5280.py:440-443 `Validity.componentType = ...` -/
def Validity : Py.Obj :=
  Rfc5280.Validity__0.setComponentType (Py.NamedTypes [
    Py.NamedType "notBefore" Rfc5280.Time.call,
    Py.NamedType "notAfter" Rfc5280.Time.call])

/-- rfc5280.py:446-447 `class SubjectPublicKeyInfo(univ.Sequence)` -/
def SubjectPublicKeyInfo__0 : Py.Obj :=
  Py.univ.Sequence

/-- rfc5280.py:450-453 `SubjectPublicKeyInfo.componentType = ...` -/
def SubjectPublicKeyInfo : Py.Obj :=
  Rfc5280.SubjectPublicKeyInfo__0.setComponentType (Py.NamedTypes [
    Py.NamedType "algorithm" Rfc5280.AlgorithmIdentifier.call,
    Py.NamedType "subjectPublicKey" Py.univ.BitString.call])

/-- rfc5280.py:456-457 `class TBSCertificate(univ.Sequence)` -/
def TBSCertificate__0 : Py.Obj :=
  Py.univ.Sequence

/-- rfc5280.py:460-476 `TBSCertificate.componentType = ...` -/
def TBSCertificate : Py.Obj :=
  Rfc5280.TBSCertificate__0.setComponentType (Py.NamedTypes [
    Py.DefaultedNamedType "version" ((Rfc5280.Version.call.explicitTag (Py.Tag .context false 0)).callStr "v1"),
    Py.NamedType "serialNumber" Rfc5280.CertificateSerialNumber.call,
    Py.NamedType "signature" Rfc5280.AlgorithmIdentifier.call,
    Py.NamedType "issuer" Rfc5280.Name.call,
    Py.NamedType "validity" Rfc5280.Validity.call,
    Py.NamedType "subject" Rfc5280.Name.call,
    Py.NamedType "subjectPublicKeyInfo" Rfc5280.SubjectPublicKeyInfo.call,
    Py.OptionalNamedType "issuerUniqueID" (Rfc5280.UniqueIdentifier.call.implicitTag (Py.Tag .context false 1)),
    Py.OptionalNamedType "subjectUniqueID" (Rfc5280.UniqueIdentifier.call.implicitTag (Py.Tag .context false 2)),
    Py.OptionalNamedType "extensions" (Rfc5280.Extensions.call.explicitTag (Py.Tag .context false 3))])

/-- rfc5280.py:478 -/
def physical_delivery_office_name : Py.Obj :=
  (Py.univ.Integer.call.callInt 10)

/-- rfc5280.py:480 -/
def ub_name : Py.Obj :=
  (Py.univ.Integer.call.callInt 32768)

/-- rfc5280.py:483-484 `class X520name(univ.Choice)` -/
def X520name__0 : Py.Obj :=
  Py.univ.Choice

/-- rfc5280.py:487-497 `X520name.componentType = ...` -/
def X520name : Py.Obj :=
  Rfc5280.X520name__0.setComponentType (Py.NamedTypes [
    Py.NamedType "teletexString" (Py.char.TeletexString.call.addSubtypeSpec (Py.ValueSizeConstraint (.fin 1) Rfc5280.ub_name.bound)),
    Py.NamedType "printableString" (Py.char.PrintableString.call.addSubtypeSpec (Py.ValueSizeConstraint (.fin 1) Rfc5280.ub_name.bound)),
    Py.NamedType "universalString" (Py.char.UniversalString.call.addSubtypeSpec (Py.ValueSizeConstraint (.fin 1) Rfc5280.ub_name.bound)),
    Py.NamedType "utf8String" (Py.char.UTF8String.call.addSubtypeSpec (Py.ValueSizeConstraint (.fin 1) Rfc5280.ub_name.bound)),
    Py.NamedType "bmpString" (Py.char.BMPString.call.addSubtypeSpec (Py.ValueSizeConstraint (.fin 1) Rfc5280.ub_name.bound))])

/-- rfc5280.py:499 -/
def id_at_dnQualifier : Py.Obj :=
  (Rfc5280._buildOid [.oid Rfc5280.id_at, .num 46])

/-- rfc5280.py:501 -/
def ub_serial_number : Py.Obj :=
  (Py.univ.Integer.call.callInt 64)

/-- rfc5280.py:503 -/
def ub_pseudonym : Py.Obj :=
  (Py.univ.Integer.call.callInt 128)

/-- rfc5280.py:505 -/
def pkcs_9 : Py.Obj :=
  (Rfc5280._buildOid [.num 1, .num 2, .num 840, .num 113549, .num 1, .num 9])

/-- rfc5280.py:508-509 `class X121Address(char.NumericString)` -/
def X121Address__0 : Py.Obj :=
  Py.char.NumericString

/-- rfc5280.py:512 `X121Address.subtypeSpec = ...` -/
def X121Address : Py.Obj :=
  Rfc5280.X121Address__0.setSubtypeSpec (Py.ValueSizeConstraint (.fin 1) Rfc5280.ub_x121_address_length.bound)

/-- rfc5280.py:515-516 `class NetworkAddress(X121Address)` -/
def NetworkAddress : Py.Obj :=
  Rfc5280.X121Address

/-- rfc5280.py:519 -/
def ub_integer_options : Py.Obj :=
  (Py.univ.Integer.call.callInt 256)

/-- rfc5280.py:521 -/
def id_at_commonName : Py.Obj :=
  (Rfc5280._buildOid [.oid Rfc5280.id_at, .num 3])

/-- rfc5280.py:523 -/
def ub_organization_name_length : Py.Obj :=
  (Py.univ.Integer.call.callInt 64)

/-- rfc5280.py:525 -/
def id_ad_ocsp : Py.Obj :=
  (Rfc5280._buildOid [.oid Rfc5280.id_ad, .num 1])

/-- rfc5280.py:527 -/
def ub_country_name_numeric_length : Py.Obj :=
  (Py.univ.Integer.call.callInt 3)

/-- rfc5280.py:529 -/
def ub_country_name_alpha_length : Py.Obj :=
  (Py.univ.Integer.call.callInt 2)

/-- rfc5280.py:532-533 `class PhysicalDeliveryCountryName(univ.Choice)` -/
def PhysicalDeliveryCountryName__0 : Py.Obj :=
  Py.univ.Choice

/-- rfc5280.py:536-541 `PhysicalDeliveryCountryName.componentType = ...` -/
def PhysicalDeliveryCountryName : Py.Obj :=
  Rfc5280.PhysicalDeliveryCountryName__0.setComponentType (Py.NamedTypes [
    Py.NamedType "x121-dcc-code" (Py.char.NumericString.call.addSubtypeSpec (Py.ValueSizeConstraint Rfc5280.ub_country_name_numeric_length.bound Rfc5280.ub_country_name_numeric_length.bound)),
    Py.NamedType "iso-3166-alpha2-code" (Py.char.PrintableString.call.addSubtypeSpec (Py.ValueSizeConstraint Rfc5280.ub_country_name_alpha_length.bound Rfc5280.ub_country_name_alpha_length.bound))])

/-- rfc5280.py:543 -/
def id_emailAddress : Py.Obj :=
  (Rfc5280._buildOid [.oid Rfc5280.pkcs_9, .num 1])

/-- rfc5280.py:545 -/
def common_name : Py.Obj :=
  (Py.univ.Integer.call.callInt 1)

/-- rfc5280.py:548-549 `class X520Pseudonym(univ.Choice)` -/
def X520Pseudonym__0 : Py.Obj :=
  Py.univ.Choice

/-- rfc5280.py:552-563 `X520Pseudonym.componentType = ...` -/
def X520Pseudonym : Py.Obj :=
  Rfc5280.X520Pseudonym__0.setComponentType (Py.NamedTypes [
    Py.NamedType "teletexString" (Py.char.TeletexString.call.addSubtypeSpec (Py.ValueSizeConstraint (.fin 1) Rfc5280.ub_pseudonym.bound)),
    Py.NamedType "printableString" (Py.char.PrintableString.call.addSubtypeSpec (Py.ValueSizeConstraint (.fin 1) Rfc5280.ub_pseudonym.bound)),
    Py.NamedType "universalString" (Py.char.UniversalString.call.addSubtypeSpec (Py.ValueSizeConstraint (.fin 1) Rfc5280.ub_pseudonym.bound)),
    Py.NamedType "utf8String" (Py.char.UTF8String.call.addSubtypeSpec (Py.ValueSizeConstraint (.fin 1) Rfc5280.ub_pseudonym.bound)),
    Py.NamedType "bmpString" (Py.char.BMPString.call.addSubtypeSpec (Py.ValueSizeConstraint (.fin 1) Rfc5280.ub_pseudonym.bound))])

/-- rfc5280.py:565 -/
def ub_domain_name_length : Py.Obj :=
  (Py.univ.Integer.call.callInt 16)

/-- rfc5280.py:568-569 `class AdministrationDomainName(univ.Choice)` -/
def AdministrationDomainName__0 : Py.Obj :=
  Py.univ.Choice

/-- rfc5280.py:572-573 `AdministrationDomainName.tagSet = ...` -/
def AdministrationDomainName__1 : Py.Obj :=
  Rfc5280.AdministrationDomainName__0.setTagSet (Py.univ.Choice.tagSet.tagExplicitly (Py.Tag .application true 2))

/-- rfc5280.py:574-579 `AdministrationDomainName.componentType = ...` -/
def AdministrationDomainName : Py.Obj :=
  Rfc5280.AdministrationDomainName__1.setComponentType (Py.NamedTypes [
    Py.NamedType "numeric" (Py.char.NumericString.call.addSubtypeSpec (Py.ValueSizeConstraint (.fin 0) Rfc5280.ub_domain_name_length.bound)),
    Py.NamedType "printable" (Py.char.PrintableString.call.addSubtypeSpec (Py.ValueSizeConstraint (.fin 0) Rfc5280.ub_domain_name_length.bound))])

/-- rfc5280.py:582-583 `class PresentationAddress(univ.Sequence)` -/
def PresentationAddress__0 : Py.Obj :=
  Py.univ.Sequence

/-- rfc5280.py:586-595 `PresentationAddress.componentType = ...` -/
def PresentationAddress : Py.Obj :=
  Rfc5280.PresentationAddress__0.setComponentType (Py.NamedTypes [
    Py.OptionalNamedType "pSelector" (Py.univ.OctetString.call.explicitTag (Py.Tag .context false 0)),
    Py.OptionalNamedType "sSelector" (Py.univ.OctetString.call.explicitTag (Py.Tag .context false 1)),
    Py.OptionalNamedType "tSelector" (Py.univ.OctetString.call.explicitTag (Py.Tag .context false 2)),
    Py.NamedType "nAddresses" ((Py.univ.SetOf.call.setComponentTypeOf Py.univ.OctetString.call).explicitTag (Py.Tag .context false 3))])

/-- rfc5280.py:598-599 `class ExtendedNetworkAddress(univ.Choice)` -/
def ExtendedNetworkAddress__0 : Py.Obj :=
  Py.univ.Choice

/-- rfc5280.py:602-613 `ExtendedNetworkAddress.componentType = ...` -/
def ExtendedNetworkAddress : Py.Obj :=
  Rfc5280.ExtendedNetworkAddress__0.setComponentType (Py.NamedTypes [
    Py.NamedType "e163-4-address" (Py.univ.Sequence.call.setComponentType (Py.NamedTypes [
    Py.NamedType "number" ((Py.char.NumericString.call.addSubtypeSpec (Py.ValueSizeConstraint (.fin 1) Rfc5280.ub_e163_4_number_length.bound)).implicitTag (Py.Tag .context false 0)),
    Py.OptionalNamedType "sub-address" ((Py.char.NumericString.call.addSubtypeSpec (Py.ValueSizeConstraint (.fin 1) Rfc5280.ub_e163_4_sub_address_length.bound)).implicitTag (Py.Tag .context false 1))])),
    Py.NamedType "psap-address" (Rfc5280.PresentationAddress.call.implicitTag (Py.Tag .context true 0))])

/-- rfc5280.py:616-617 `class TeletexOrganizationName(char.TeletexString)` -/
def TeletexOrganizationName__0 : Py.Obj :=
  Py.char.TeletexString

/-- rfc5280.py:620 `TeletexOrganizationName.subtypeSpec = ...` -/
def TeletexOrganizationName : Py.Obj :=
  Rfc5280.TeletexOrganizationName__0.setSubtypeSpec (Py.ValueSizeConstraint (.fin 1) Rfc5280.ub_organization_name_length.bound)

/-- rfc5280.py:622 -/
def ub_terminal_id_length : Py.Obj :=
  (Py.univ.Integer.call.callInt 24)

/-- rfc5280.py:625-626 `class TerminalIdentifier(char.PrintableString)` -/
def TerminalIdentifier__0 : Py.Obj :=
  Py.char.PrintableString

/-- rfc5280.py:629 `TerminalIdentifier.subtypeSpec = ...` -/
def TerminalIdentifier : Py.Obj :=
  Rfc5280.TerminalIdentifier__0.setSubtypeSpec (Py.ValueSizeConstraint (.fin 1) Rfc5280.ub_terminal_id_length.bound)

/-- rfc5280.py:631 -/
def id_ad_caIssuers : Py.Obj :=
  (Rfc5280._buildOid [.oid Rfc5280.id_ad, .num 2])

/-- rfc5280.py:633 -/
def id_at_countryName : Py.Obj :=
  (Rfc5280._buildOid [.oid Rfc5280.id_at, .num 6])

/-- rfc5280.py:636-637 `class StreetAddress(PDSParameter)` -/
def StreetAddress : Py.Obj :=
  Rfc5280.PDSParameter

/-- rfc5280.py:640 -/
def postal_code : Py.Obj :=
  (Py.univ.Integer.call.callInt 9)

/-- rfc5280.py:642 -/
def id_at_givenName : Py.Obj :=
  (Rfc5280._buildOid [.oid Rfc5280.id_at, .num 42])

/-- rfc5280.py:644 -/
def ub_title : Py.Obj :=
  (Py.univ.Integer.call.callInt 64)

/-- rfc5280.py:647-648 `class ExtensionAttributes(univ.SetOf)` -/
def ExtensionAttributes__0 : Py.Obj :=
  Py.univ.SetOf

/-- rfc5280.py:651 `ExtensionAttributes.componentType = ...` -/
def ExtensionAttributes__1 : Py.Obj :=
  Rfc5280.ExtensionAttributes__0.setComponentTypeOf Rfc5280.ExtensionAttribute.call

/-- rfc5280.py:652 `ExtensionAttributes.sizeSpec = ...` -/
def ExtensionAttributes : Py.Obj :=
  Rfc5280.ExtensionAttributes__1.setSizeSpec (Py.ValueSizeConstraint (.fin 1) Rfc5280.ub_extension_attributes.bound)

/-- rfc5280.py:654 -/
def ub_emailaddress_length : Py.Obj :=
  (Py.univ.Integer.call.callInt 255)

/-- rfc5280.py:656 -/
def id_ad_caRepository : Py.Obj :=
  (Rfc5280._buildOid [.oid Rfc5280.id_ad, .num 5])

/-- rfc5280.py:659-660 `class ExtensionORAddressComponents(PDSParameter)` -/
def ExtensionORAddressComponents : Py.Obj :=
  Rfc5280.PDSParameter

/-- rfc5280.py:663 -/
def ub_organizational_unit_name : Py.Obj :=
  (Py.univ.Integer.call.callInt 64)

/-- rfc5280.py:666-667 `class X520OrganizationalUnitName(univ.Choice)` -/
def X520OrganizationalUnitName__0 : Py.Obj :=
  Py.univ.Choice

/-- rfc5280.py:670-681 `X520OrganizationalUnitName.componentType = ...` -/
def X520OrganizationalUnitName : Py.Obj :=
  Rfc5280.X520OrganizationalUnitName__0.setComponentType (Py.NamedTypes [
    Py.NamedType "teletexString" (Py.char.TeletexString.call.addSubtypeSpec (Py.ValueSizeConstraint (.fin 1) Rfc5280.ub_organizational_unit_name.bound)),
    Py.NamedType "printableString" (Py.char.PrintableString.call.addSubtypeSpec (Py.ValueSizeConstraint (.fin 1) Rfc5280.ub_organizational_unit_name.bound)),
    Py.NamedType "universalString" (Py.char.UniversalString.call.addSubtypeSpec (Py.ValueSizeConstraint (.fin 1) Rfc5280.ub_organizational_unit_name.bound)),
    Py.NamedType "utf8String" (Py.char.UTF8String.call.addSubtypeSpec (Py.ValueSizeConstraint (.fin 1) Rfc5280.ub_organizational_unit_name.bound)),
    Py.NamedType "bmpString" (Py.char.BMPString.call.addSubtypeSpec (Py.ValueSizeConstraint (.fin 1) Rfc5280.ub_organizational_unit_name.bound))])

/-- rfc5280.py:684-685 `class LocalPostalAttributes(PDSParameter)` -/
def LocalPostalAttributes : Py.Obj :=
  Rfc5280.PDSParameter

/-- rfc5280.py:688 -/
def teletex_organizational_unit_names : Py.Obj :=
  (Py.univ.Integer.call.callInt 5)

/-- rfc5280.py:691-692 `class X520Title(univ.Choice)` -/
def X520Title__0 : Py.Obj :=
  Py.univ.Choice

/-- rfc5280.py:695-705 `X520Title.componentType = ...` -/
def X520Title : Py.Obj :=
  Rfc5280.X520Title__0.setComponentType (Py.NamedTypes [
    Py.NamedType "teletexString" (Py.char.TeletexString.call.addSubtypeSpec (Py.ValueSizeConstraint (.fin 1) Rfc5280.ub_title.bound)),
    Py.NamedType "printableString" (Py.char.PrintableString.call.addSubtypeSpec (Py.ValueSizeConstraint (.fin 1) Rfc5280.ub_title.bound)),
    Py.NamedType "universalString" (Py.char.UniversalString.call.addSubtypeSpec (Py.ValueSizeConstraint (.fin 1) Rfc5280.ub_title.bound)),
    Py.NamedType "utf8String" (Py.char.UTF8String.call.addSubtypeSpec (Py.ValueSizeConstraint (.fin 1) Rfc5280.ub_title.bound)),
    Py.NamedType "bmpString" (Py.char.BMPString.call.addSubtypeSpec (Py.ValueSizeConstraint (.fin 1) Rfc5280.ub_title.bound))])

/-- rfc5280.py:707 -/
def id_at_localityName : Py.Obj :=
  (Rfc5280._buildOid [.oid Rfc5280.id_at, .num 7])

/-- rfc5280.py:709 -/
def id_at_initials : Py.Obj :=
  (Rfc5280._buildOid [.oid Rfc5280.id_at, .num 43])

/-- rfc5280.py:711 -/
def ub_state_name : Py.Obj :=
  (Py.univ.Integer.call.callInt 128)

/-- rfc5280.py:714-715 `class X520StateOrProvinceName(univ.Choice)` -/
def X520StateOrProvinceName__0 : Py.Obj :=
  Py.univ.Choice

/-- rfc5280.py:718-729 `X520StateOrProvinceName.componentType = ...` -/
def X520StateOrProvinceName : Py.Obj :=
  Rfc5280.X520StateOrProvinceName__0.setComponentType (Py.NamedTypes [
    Py.NamedType "teletexString" (Py.char.TeletexString.call.addSubtypeSpec (Py.ValueSizeConstraint (.fin 1) Rfc5280.ub_state_name.bound)),
    Py.NamedType "printableString" (Py.char.PrintableString.call.addSubtypeSpec (Py.ValueSizeConstraint (.fin 1) Rfc5280.ub_state_name.bound)),
    Py.NamedType "universalString" (Py.char.UniversalString.call.addSubtypeSpec (Py.ValueSizeConstraint (.fin 1) Rfc5280.ub_state_name.bound)),
    Py.NamedType "utf8String" (Py.char.UTF8String.call.addSubtypeSpec (Py.ValueSizeConstraint (.fin 1) Rfc5280.ub_state_name.bound)),
    Py.NamedType "bmpString" (Py.char.BMPString.call.addSubtypeSpec (Py.ValueSizeConstraint (.fin 1) Rfc5280.ub_state_name.bound))])

/-- rfc5280.py:731 -/
def physical_delivery_organization_name : Py.Obj :=
  (Py.univ.Integer.call.callInt 14)

/-- rfc5280.py:733 -/
def id_at_surname : Py.Obj :=
  (Rfc5280._buildOid [.oid Rfc5280.id_at, .num 4])

/-- rfc5280.py:736-737 `class X520countryName(char.PrintableString)` -/
def X520countryName__0 : Py.Obj :=
  Py.char.PrintableString

/-- rfc5280.py:740 `X520countryName.subtypeSpec = ...` -/
def X520countryName : Py.Obj :=
  Rfc5280.X520countryName__0.setSubtypeSpec (Py.ValueSizeConstraint (.fin 2) (.fin 2))

/-- rfc5280.py:742 -/
def physical_delivery_office_number : Py.Obj :=
  (Py.univ.Integer.call.callInt 11)

/-- rfc5280.py:744 -/
def id_qt_unotice : Py.Obj :=
  (Rfc5280._buildOid [.oid Rfc5280.id_qt, .num 2])

/-- rfc5280.py:747-748 `class X520SerialNumber(char.PrintableString)` -/
def X520SerialNumber__0 : Py.Obj :=
  Py.char.PrintableString

/-- rfc5280.py:751 `X520SerialNumber.subtypeSpec = ...` -/
def X520SerialNumber : Py.Obj :=
  Rfc5280.X520SerialNumber__0.setSubtypeSpec (Py.ValueSizeConstraint (.fin 1) Rfc5280.ub_serial_number.bound)

/-- rfc5280.py:754-760 `class Attribute(univ.Sequence)` -/
def Attribute : Py.Obj :=
  Py.univ.Sequence.setComponentType (Py.NamedTypes [
    Py.NamedType "type" Rfc5280.AttributeType.call,
    Py.NamedType "values" (Py.univ.SetOf.call.setComponentTypeOf Rfc5280.AttributeValue.call) (openType := some (Py.OpenType "type" (Py.map 4 "rfc5280.certificateAttributesMap")))])

/-- rfc5280.py:762 -/
def ub_common_name : Py.Obj :=
  (Py.univ.Integer.call.callInt 64)

/-- rfc5280.py:764 -/
def id_pe : Py.Obj :=
  (Rfc5280._buildOid [.oid Rfc5280.id_pkix, .num 1])

/-- rfc5280.py:767-768 `class ExtensionPhysicalDeliveryAddressComponents(PDSParameter)` -/
def ExtensionPhysicalDeliveryAddressComponents : Py.Obj :=
  Rfc5280.PDSParameter

/-- rfc5280.py:771-772 `class EmailAddress(char.IA5String)` -/
def EmailAddress__0 : Py.Obj :=
  Py.char.IA5String

/-- rfc5280.py:775 `EmailAddress.subtypeSpec = ...` -/
def EmailAddress : Py.Obj :=
  Rfc5280.EmailAddress__0.setSubtypeSpec (Py.ValueSizeConstraint (.fin 1) Rfc5280.ub_emailaddress_length.bound)

/-- rfc5280.py:777 -/
def id_at_organizationName : Py.Obj :=
  (Rfc5280._buildOid [.oid Rfc5280.id_at, .num 10])

/-- rfc5280.py:779 -/
def post_office_box_address : Py.Obj :=
  (Py.univ.Integer.call.callInt 18)

/-- rfc5280.py:782-783 `class BuiltInDomainDefinedAttribute(univ.Sequence)` -/
def BuiltInDomainDefinedAttribute__0 : Py.Obj :=
  Py.univ.Sequence

/-- rfc5280.py:786-791 `BuiltInDomainDefinedAttribute.componentType = ...` -/
def BuiltInDomainDefinedAttribute : Py.Obj :=
  Rfc5280.BuiltInDomainDefinedAttribute__0.setComponentType (Py.NamedTypes [
    Py.NamedType "type" (Py.char.PrintableString.call.addSubtypeSpec (Py.ValueSizeConstraint (.fin 1) Rfc5280.ub_domain_defined_attribute_type_length.bound)),
    Py.NamedType "value" (Py.char.PrintableString.call.addSubtypeSpec (Py.ValueSizeConstraint (.fin 1) Rfc5280.ub_domain_defined_attribute_value_length.bound))])

/-- rfc5280.py:794-795 `class BuiltInDomainDefinedAttributes(univ.SequenceOf)` -/
def BuiltInDomainDefinedAttributes__0 : Py.Obj :=
  Py.univ.SequenceOf

/-- rfc5280.py:798 `BuiltInDomainDefinedAttributes.componentType = ...` -/
def BuiltInDomainDefinedAttributes__1 : Py.Obj :=
  Rfc5280.BuiltInDomainDefinedAttributes__0.setComponentTypeOf Rfc5280.BuiltInDomainDefinedAttribute.call

/-- rfc5280.py:799 `BuiltInDomainDefinedAttributes.sizeSpec = ...` -/
def BuiltInDomainDefinedAttributes : Py.Obj :=
  Rfc5280.BuiltInDomainDefinedAttributes__1.setSizeSpec (Py.ValueSizeConstraint (.fin 1) Rfc5280.ub_domain_defined_attributes.bound)

/-- rfc5280.py:801 -/
def id_at_pseudonym : Py.Obj :=
  (Rfc5280._buildOid [.oid Rfc5280.id_at, .num 65])

/-- rfc5280.py:803 -/
def id_domainComponent : Py.Obj :=
  (Rfc5280._buildOid [.num 0, .num 9, .num 2342, .num 19200300, .num 100, .num 1, .num 25])

/-- rfc5280.py:806-807 `class X520CommonName(univ.Choice)` -/
def X520CommonName__0 : Py.Obj :=
  Py.univ.Choice

/-- rfc5280.py:810-821 `X520CommonName.componentType = ...` -/
def X520CommonName : Py.Obj :=
  Rfc5280.X520CommonName__0.setComponentType (Py.NamedTypes [
    Py.NamedType "teletexString" (Py.char.TeletexString.call.addSubtypeSpec (Py.ValueSizeConstraint (.fin 1) Rfc5280.ub_common_name.bound)),
    Py.NamedType "printableString" (Py.char.PrintableString.call.addSubtypeSpec (Py.ValueSizeConstraint (.fin 1) Rfc5280.ub_common_name.bound)),
    Py.NamedType "universalString" (Py.char.UniversalString.call.addSubtypeSpec (Py.ValueSizeConstraint (.fin 1) Rfc5280.ub_common_name.bound)),
    Py.NamedType "utf8String" (Py.char.UTF8String.call.addSubtypeSpec (Py.ValueSizeConstraint (.fin 1) Rfc5280.ub_common_name.bound)),
    Py.NamedType "bmpString" (Py.char.BMPString.call.addSubtypeSpec (Py.ValueSizeConstraint (.fin 1) Rfc5280.ub_common_name.bound))])

/-- rfc5280.py:823 -/
def extension_OR_address_components : Py.Obj :=
  (Py.univ.Integer.call.callInt 12)

/-- rfc5280.py:825 -/
def ub_organizational_units : Py.Obj :=
  (Py.univ.Integer.call.callInt 4)

/-- rfc5280.py:827 -/
def teletex_personal_name : Py.Obj :=
  (Py.univ.Integer.call.callInt 4)

/-- rfc5280.py:829 -/
def ub_numeric_user_id_length : Py.Obj :=
  (Py.univ.Integer.call.callInt 32)

/-- rfc5280.py:831 -/
def ub_common_name_length : Py.Obj :=
  (Py.univ.Integer.call.callInt 64)

/-- rfc5280.py:834-835 `class TeletexCommonName(char.TeletexString)` -/
def TeletexCommonName__0 : Py.Obj :=
  Py.char.TeletexString

/-- rfc5280.py:838 `TeletexCommonName.subtypeSpec = ...` -/
def TeletexCommonName : Py.Obj :=
  Rfc5280.TeletexCommonName__0.setSubtypeSpec (Py.ValueSizeConstraint (.fin 1) Rfc5280.ub_common_name_length.bound)

/-- rfc5280.py:841-842 `class PhysicalDeliveryOrganizationName(PDSParameter)` -/
def PhysicalDeliveryOrganizationName : Py.Obj :=
  Rfc5280.PDSParameter

/-- rfc5280.py:845 -/
def extension_physical_delivery_address_components : Py.Obj :=
  (Py.univ.Integer.call.callInt 15)

/-- rfc5280.py:848-849 `class NumericUserIdentifier(char.NumericString)` -/
def NumericUserIdentifier__0 : Py.Obj :=
  Py.char.NumericString

/-- rfc5280.py:852 `NumericUserIdentifier.subtypeSpec = ...` -/
def NumericUserIdentifier : Py.Obj :=
  Rfc5280.NumericUserIdentifier__0.setSubtypeSpec (Py.ValueSizeConstraint (.fin 1) Rfc5280.ub_numeric_user_id_length.bound)

/-- rfc5280.py:855-856 `class CountryName(univ.Choice)` -/
def CountryName__0 : Py.Obj :=
  Py.univ.Choice

/-- rfc5280.py:859 `CountryName.tagSet = ...` -/
def CountryName__1 : Py.Obj :=
  Rfc5280.CountryName__0.setTagSet (Py.univ.Choice.tagSet.tagExplicitly (Py.Tag .application true 1))

/-- rfc5280.py:860-865 `CountryName.componentType = ...` -/
def CountryName : Py.Obj :=
  Rfc5280.CountryName__1.setComponentType (Py.NamedTypes [
    Py.NamedType "x121-dcc-code" (Py.char.NumericString.call.addSubtypeSpec (Py.ValueSizeConstraint Rfc5280.ub_country_name_numeric_length.bound Rfc5280.ub_country_name_numeric_length.bound)),
    Py.NamedType "iso-3166-alpha2-code" (Py.char.PrintableString.call.addSubtypeSpec (Py.ValueSizeConstraint Rfc5280.ub_country_name_alpha_length.bound Rfc5280.ub_country_name_alpha_length.bound))])

/-- rfc5280.py:868-869 `class OrganizationName(char.PrintableString)` -/
def OrganizationName__0 : Py.Obj :=
  Py.char.PrintableString

/-- rfc5280.py:872 `OrganizationName.subtypeSpec = ...` -/
def OrganizationName : Py.Obj :=
  Rfc5280.OrganizationName__0.setSubtypeSpec (Py.ValueSizeConstraint (.fin 1) Rfc5280.ub_organization_name_length.bound)

/-- rfc5280.py:875-876 `class OrganizationalUnitNames(univ.SequenceOf)` -/
def OrganizationalUnitNames__0 : Py.Obj :=
  Py.univ.SequenceOf

/-- rfc5280.py:879 `OrganizationalUnitNames.componentType = ...` -/
def OrganizationalUnitNames__1 : Py.Obj :=
  Rfc5280.OrganizationalUnitNames__0.setComponentTypeOf Rfc5280.OrganizationalUnitName.call

/-- rfc5280.py:880 `OrganizationalUnitNames.sizeSpec = ...` -/
def OrganizationalUnitNames : Py.Obj :=
  Rfc5280.OrganizationalUnitNames__1.setSizeSpec (Py.ValueSizeConstraint (.fin 1) Rfc5280.ub_organizational_units.bound)

/-- rfc5280.py:883-884 `class PrivateDomainName(univ.Choice)` -/
def PrivateDomainName__0 : Py.Obj :=
  Py.univ.Choice

/-- rfc5280.py:887-892 `PrivateDomainName.componentType = ...` -/
def PrivateDomainName : Py.Obj :=
  Rfc5280.PrivateDomainName__0.setComponentType (Py.NamedTypes [
    Py.NamedType "numeric" (Py.char.NumericString.call.addSubtypeSpec (Py.ValueSizeConstraint (.fin 1) Rfc5280.ub_domain_name_length.bound)),
    Py.NamedType "printable" (Py.char.PrintableString.call.addSubtypeSpec (Py.ValueSizeConstraint (.fin 1) Rfc5280.ub_domain_name_length.bound))])

/-- rfc5280.py:895-896 `class BuiltInStandardAttributes(univ.Sequence)` -/
def BuiltInStandardAttributes__0 : Py.Obj :=
  Py.univ.Sequence

/-- rfc5280.py:899-916 `BuiltInStandardAttributes.componentType = ...` -/
def BuiltInStandardAttributes : Py.Obj :=
  Rfc5280.BuiltInStandardAttributes__0.setComponentType (Py.NamedTypes [
    Py.OptionalNamedType "country-name" Rfc5280.CountryName.call,
    Py.OptionalNamedType "administration-domain-name" Rfc5280.AdministrationDomainName.call,
    Py.OptionalNamedType "network-address" (Rfc5280.NetworkAddress.call.implicitTag (Py.Tag .context false 0)),
    Py.OptionalNamedType "terminal-identifier" (Rfc5280.TerminalIdentifier.call.implicitTag (Py.Tag .context false 1)),
    Py.OptionalNamedType "private-domain-name" (Rfc5280.PrivateDomainName.call.explicitTag (Py.Tag .context true 2)),
    Py.OptionalNamedType "organization-name" (Rfc5280.OrganizationName.call.implicitTag (Py.Tag .context false 3)),
    Py.OptionalNamedType "numeric-user-identifier" (Rfc5280.NumericUserIdentifier.call.implicitTag (Py.Tag .context false 4)),
    Py.OptionalNamedType "personal-name" (Rfc5280.PersonalName.call.implicitTag (Py.Tag .context true 5)),
    Py.OptionalNamedType "organizational-unit-names" (Rfc5280.OrganizationalUnitNames.call.implicitTag (Py.Tag .context false 6))])

/-- rfc5280.py:919-920 `class ORAddress(univ.Sequence)` -/
def ORAddress__0 : Py.Obj :=
  Py.univ.Sequence

/-- rfc5280.py:923-927 `ORAddress.componentType = ...` -/
def ORAddress : Py.Obj :=
  Rfc5280.ORAddress__0.setComponentType (Py.NamedTypes [
    Py.NamedType "built-in-standard-attributes" Rfc5280.BuiltInStandardAttributes.call,
    Py.OptionalNamedType "built-in-domain-defined-attributes" Rfc5280.BuiltInDomainDefinedAttributes.call,
    Py.OptionalNamedType "extension-attributes" Rfc5280.ExtensionAttributes.call])

/-- rfc5280.py:930-931 `class DistinguishedName(RDNSequence)` -/
def DistinguishedName : Py.Obj :=
  Rfc5280.RDNSequence

/-- rfc5280.py:934 -/
def id_ad_timeStamping : Py.Obj :=
  (Rfc5280._buildOid [.oid Rfc5280.id_ad, .num 3])

/-- rfc5280.py:937-938 `class PhysicalDeliveryOfficeNumber(PDSParameter)` -/
def PhysicalDeliveryOfficeNumber : Py.Obj :=
  Rfc5280.PDSParameter

/-- rfc5280.py:941 -/
def teletex_domain_defined_attributes : Py.Obj :=
  (Py.univ.Integer.call.callInt 6)

/-- rfc5280.py:944-945 `class UniquePostalName(PDSParameter)` -/
def UniquePostalName : Py.Obj :=
  Rfc5280.PDSParameter

/-- rfc5280.py:948 -/
def physical_delivery_country_name : Py.Obj :=
  (Py.univ.Integer.call.callInt 8)

/-- rfc5280.py:950 -/
def ub_pds_name_length : Py.Obj :=
  (Py.univ.Integer.call.callInt 16)

/-- rfc5280.py:953-954 `class PDSName(char.PrintableString)` -/
def PDSName__0 : Py.Obj :=
  Py.char.PrintableString

/-- rfc5280.py:957 `PDSName.subtypeSpec = ...` -/
def PDSName : Py.Obj :=
  Rfc5280.PDSName__0.setSubtypeSpec (Py.ValueSizeConstraint (.fin 1) Rfc5280.ub_pds_name_length.bound)

/-- rfc5280.py:960-961 `class TeletexPersonalName(univ.Set)` -/
def TeletexPersonalName__0 : Py.Obj :=
  Py.univ.Set

/-- rfc5280.py:964-977 `TeletexPersonalName.componentType = ...` -/
def TeletexPersonalName : Py.Obj :=
  Rfc5280.TeletexPersonalName__0.setComponentType (Py.NamedTypes [
    Py.NamedType "surname" ((Py.char.TeletexString.call.addSubtypeSpec (Py.ValueSizeConstraint (.fin 1) Rfc5280.ub_surname_length.bound)).implicitTag (Py.Tag .context false 0)),
    Py.OptionalNamedType "given-name" ((Py.char.TeletexString.call.addSubtypeSpec (Py.ValueSizeConstraint (.fin 1) Rfc5280.ub_given_name_length.bound)).implicitTag (Py.Tag .context false 1)),
    Py.OptionalNamedType "initials" ((Py.char.TeletexString.call.addSubtypeSpec (Py.ValueSizeConstraint (.fin 1) Rfc5280.ub_initials_length.bound)).implicitTag (Py.Tag .context false 2)),
    Py.OptionalNamedType "generation-qualifier" ((Py.char.TeletexString.call.addSubtypeSpec (Py.ValueSizeConstraint (.fin 1) Rfc5280.ub_generation_qualifier_length.bound)).implicitTag (Py.Tag .context false 3))])

/-- rfc5280.py:979 -/
def street_address : Py.Obj :=
  (Py.univ.Integer.call.callInt 17)

/-- rfc5280.py:982-983 `class PostOfficeBoxAddress(PDSParameter)` -/
def PostOfficeBoxAddress : Py.Obj :=
  Rfc5280.PDSParameter

/-- rfc5280.py:986 -/
def local_postal_attributes : Py.Obj :=
  (Py.univ.Integer.call.callInt 21)

/-- rfc5280.py:989-990 `class DirectoryString(univ.Choice)` -/
def DirectoryString__0 : Py.Obj :=
  Py.univ.Choice

/-- rfc5280.py:993-1002 `DirectoryString.componentType = ...` -/
def DirectoryString : Py.Obj :=
  Rfc5280.DirectoryString__0.setComponentType (Py.NamedTypes [
    Py.NamedType "teletexString" (Py.char.TeletexString.call.addSubtypeSpec (Py.ValueSizeConstraint (.fin 1) Rfc5280.MAX)),
    Py.NamedType "printableString" (Py.char.PrintableString.call.addSubtypeSpec (Py.ValueSizeConstraint (.fin 1) Rfc5280.MAX)),
    Py.NamedType "universalString" (Py.char.UniversalString.call.addSubtypeSpec (Py.ValueSizeConstraint (.fin 1) Rfc5280.MAX)),
    Py.NamedType "utf8String" (Py.char.UTF8String.call.addSubtypeSpec (Py.ValueSizeConstraint (.fin 1) Rfc5280.MAX)),
    Py.NamedType "bmpString" (Py.char.BMPString.call.addSubtypeSpec (Py.ValueSizeConstraint (.fin 1) Rfc5280.MAX))])

/-- rfc5280.py:1004 -/
def teletex_common_name : Py.Obj :=
  (Py.univ.Integer.call.callInt 2)

/-- rfc5280.py:1007-1008 `class CommonName(char.PrintableString)` -/
def CommonName__0 : Py.Obj :=
  Py.char.PrintableString

/-- rfc5280.py:1011 `CommonName.subtypeSpec = ...` -/
def CommonName : Py.Obj :=
  Rfc5280.CommonName__0.setSubtypeSpec (Py.ValueSizeConstraint (.fin 1) Rfc5280.ub_common_name_length.bound)

/-- rfc5280.py:1014-1015 `class Certificate(univ.Sequence)` -/
def Certificate__0 : Py.Obj :=
  Py.univ.Sequence

/-- rfc5280.py:1018-1022 `Certificate.componentType = ...` -/
def Certificate : Py.Obj :=
  Rfc5280.Certificate__0.setComponentType (Py.NamedTypes [
    Py.NamedType "tbsCertificate" Rfc5280.TBSCertificate.call,
    Py.NamedType "signatureAlgorithm" Rfc5280.AlgorithmIdentifier.call,
    Py.NamedType "signature" Py.univ.BitString.call])

/-- rfc5280.py:1025-1026 `class TeletexOrganizationalUnitName(char.TeletexString)` -/
def TeletexOrganizationalUnitName__0 : Py.Obj :=
  Py.char.TeletexString

/-- rfc5280.py:1029 `TeletexOrganizationalUnitName.subtypeSpec = ...` -/
def TeletexOrganizationalUnitName : Py.Obj :=
  Rfc5280.TeletexOrganizationalUnitName__0.setSubtypeSpec (Py.ValueSizeConstraint (.fin 1) Rfc5280.ub_organizational_unit_name_length.bound)

/-- rfc5280.py:1031 -/
def id_at_name : Py.Obj :=
  (Rfc5280._buildOid [.oid Rfc5280.id_at, .num 41])

/-- rfc5280.py:1034-1035 `class TeletexOrganizationalUnitNames(univ.SequenceOf)` -/
def TeletexOrganizationalUnitNames__0 : Py.Obj :=
  Py.univ.SequenceOf

/-- rfc5280.py:1038 `TeletexOrganizationalUnitNames.componentType = ...` -/
def TeletexOrganizationalUnitNames__1 : Py.Obj :=
  Rfc5280.TeletexOrganizationalUnitNames__0.setComponentTypeOf Rfc5280.TeletexOrganizationalUnitName.call

/-- rfc5280.py:1039 `TeletexOrganizationalUnitNames.sizeSpec = ...` -/
def TeletexOrganizationalUnitNames : Py.Obj :=
  Rfc5280.TeletexOrganizationalUnitNames__1.setSizeSpec (Py.ValueSizeConstraint (.fin 1) Rfc5280.ub_organizational_units.bound)

/-- rfc5280.py:1041 -/
def id_ce : Py.Obj :=
  (Rfc5280._buildOid [.num 2, .num 5, .num 29])

/-- rfc5280.py:1043 -/
def id_ce_issuerAltName : Py.Obj :=
  (Rfc5280._buildOid [.oid Rfc5280.id_ce, .num 18])

/-- rfc5280.py:1046-1047 `class SkipCerts(univ.Integer)` -/
def SkipCerts__0 : Py.Obj :=
  Py.univ.Integer

/-- rfc5280.py:1050 `SkipCerts.subtypeSpec = ...` -/
def SkipCerts : Py.Obj :=
  Rfc5280.SkipCerts__0.setSubtypeSpec (Py.ValueRangeConstraint (.fin 0) Rfc5280.MAX)

/-- rfc5280.py:1053-1054 `class CRLReason(univ.Enumerated)` -/
def CRLReason__0 : Py.Obj :=
  Py.univ.Enumerated

/-- rfc5280.py:1057-1068 `CRLReason.namedValues = ...` -/
def CRLReason : Py.Obj :=
  Rfc5280.CRLReason__0.setNamedValues (Py.NamedValues [("unspecified", 0), ("keyCompromise", 1), ("cACompromise", 2), ("affiliationChanged", 3), ("superseded", 4), ("cessationOfOperation", 5), ("certificateHold", 6), ("removeFromCRL", 8), ("privilegeWithdrawn", 9), ("aACompromise", 10)])

/-- rfc5280.py:1071-1072 `class PrivateKeyUsagePeriod(univ.Sequence)` -/
def PrivateKeyUsagePeriod__0 : Py.Obj :=
  Py.univ.Sequence

/-- rfc5280.py:1075-1080 `PrivateKeyUsagePeriod.componentType = ...` -/
def PrivateKeyUsagePeriod : Py.Obj :=
  Rfc5280.PrivateKeyUsagePeriod__0.setComponentType (Py.NamedTypes [
    Py.OptionalNamedType "notBefore" (Py.useful.GeneralizedTime.call.implicitTag (Py.Tag .context false 0)),
    Py.OptionalNamedType "notAfter" (Py.useful.GeneralizedTime.call.implicitTag (Py.Tag .context false 1))])

/-- rfc5280.py:1083-1085 -/
def anotherNameMap : Py.Entries :=
  []

/-- rfc5280.py:1088-1096 `class AnotherName(univ.Sequence)` -/
def AnotherName : Py.Obj :=
  Py.univ.Sequence.setComponentType (Py.NamedTypes [
    Py.NamedType "type-id" Py.univ.ObjectIdentifier.call,
    Py.NamedType "value" (Py.univ.Any.call.explicitTag (Py.Tag .context false 0)) (openType := some (Py.OpenType "type-id" (Py.map 6 "rfc5280.anotherNameMap")))])

/-- rfc5280.py:1099-1100 `class EDIPartyName(univ.Sequence)` -/
def EDIPartyName__0 : Py.Obj :=
  Py.univ.Sequence

/-- rfc5280.py:1103-1108 `EDIPartyName.componentType = ...` -/
def EDIPartyName : Py.Obj :=
  Rfc5280.EDIPartyName__0.setComponentType (Py.NamedTypes [
    Py.OptionalNamedType "nameAssigner" (Rfc5280.DirectoryString.call.implicitTag (Py.Tag .context true 0)),
    Py.NamedType "partyName" (Rfc5280.DirectoryString.call.implicitTag (Py.Tag .context true 1))])

/-- rfc5280.py:1111-1112 `class GeneralName(univ.Choice)` -/
def GeneralName__0 : Py.Obj :=
  Py.univ.Choice

/-- rfc5280.py:1115-1134 `GeneralName.componentType = ...` -/
def GeneralName : Py.Obj :=
  Rfc5280.GeneralName__0.setComponentType (Py.NamedTypes [
    Py.NamedType "otherName" (Rfc5280.AnotherName.call.implicitTag (Py.Tag .context true 0)),
    Py.NamedType "rfc822Name" (Py.char.IA5String.call.implicitTag (Py.Tag .context false 1)),
    Py.NamedType "dNSName" (Py.char.IA5String.call.implicitTag (Py.Tag .context false 2)),
    Py.NamedType "x400Address" (Rfc5280.ORAddress.call.implicitTag (Py.Tag .context false 3)),
    Py.NamedType "directoryName" (Rfc5280.Name.call.implicitTag (Py.Tag .context true 4)),
    Py.NamedType "ediPartyName" (Rfc5280.EDIPartyName.call.implicitTag (Py.Tag .context true 5)),
    Py.NamedType "uniformResourceIdentifier" (Py.char.IA5String.call.implicitTag (Py.Tag .context false 6)),
    Py.NamedType "iPAddress" (Py.univ.OctetString.call.implicitTag (Py.Tag .context false 7)),
    Py.NamedType "registeredID" (Py.univ.ObjectIdentifier.call.implicitTag (Py.Tag .context false 8))])

/-- rfc5280.py:1137-1138 `class BaseDistance(univ.Integer)` -/
def BaseDistance__0 : Py.Obj :=
  Py.univ.Integer

/-- rfc5280.py:1141 `BaseDistance.subtypeSpec = ...` -/
def BaseDistance : Py.Obj :=
  Rfc5280.BaseDistance__0.setSubtypeSpec (Py.ValueRangeConstraint (.fin 0) Rfc5280.MAX)

/-- rfc5280.py:1144-1145 `class GeneralSubtree(univ.Sequence)` -/
def GeneralSubtree__0 : Py.Obj :=
  Py.univ.Sequence

/-- rfc5280.py:1148-1154 `GeneralSubtree.componentType = ...` -/
def GeneralSubtree : Py.Obj :=
  Rfc5280.GeneralSubtree__0.setComponentType (Py.NamedTypes [
    Py.NamedType "base" Rfc5280.GeneralName.call,
    Py.DefaultedNamedType "minimum" ((Rfc5280.BaseDistance.call.implicitTag (Py.Tag .context false 0)).callInt 0),
    Py.OptionalNamedType "maximum" (Rfc5280.BaseDistance.call.implicitTag (Py.Tag .context false 1))])

/-- rfc5280.py:1157-1158 `class GeneralNames(univ.SequenceOf)` -/
def GeneralNames__0 : Py.Obj :=
  Py.univ.SequenceOf

/-- rfc5280.py:1161 `GeneralNames.componentType = ...` -/
def GeneralNames__1 : Py.Obj :=
  Rfc5280.GeneralNames__0.setComponentTypeOf Rfc5280.GeneralName.call

/-- rfc5280.py:1162 `GeneralNames.sizeSpec = ...` -/
def GeneralNames : Py.Obj :=
  Rfc5280.GeneralNames__1.setSizeSpec (Py.ValueSizeConstraint (.fin 1) Rfc5280.MAX)

/-- rfc5280.py:1165-1166 `class DistributionPointName(univ.Choice)` -/
def DistributionPointName__0 : Py.Obj :=
  Py.univ.Choice

/-- rfc5280.py:1169-1174 `DistributionPointName.componentType = ...` -/
def DistributionPointName : Py.Obj :=
  Rfc5280.DistributionPointName__0.setComponentType (Py.NamedTypes [
    Py.NamedType "fullName" (Rfc5280.GeneralNames.call.implicitTag (Py.Tag .context false 0)),
    Py.NamedType "nameRelativeToCRLIssuer" (Rfc5280.RelativeDistinguishedName.call.implicitTag (Py.Tag .context false 1))])

/-- rfc5280.py:1177-1178 `class ReasonFlags(univ.BitString)` -/
def ReasonFlags__0 : Py.Obj :=
  Py.univ.BitString

/-- rfc5280.py:1181-1191 `ReasonFlags.namedValues = ...` -/
def ReasonFlags : Py.Obj :=
  Rfc5280.ReasonFlags__0.setNamedValues (Py.NamedValues [("unused", 0), ("keyCompromise", 1), ("cACompromise", 2), ("affiliationChanged", 3), ("superseded", 4), ("cessationOfOperation", 5), ("certificateHold", 6), ("privilegeWithdrawn", 7), ("aACompromise", 8)])

/-- rfc5280.py:1194-1195 `class IssuingDistributionPoint(univ.Sequence)` -/
def IssuingDistributionPoint__0 : Py.Obj :=
  Py.univ.Sequence

/-- rfc5280.py:1198-1211 `IssuingDistributionPoint.componentType = ...` -/
def IssuingDistributionPoint : Py.Obj :=
  Rfc5280.IssuingDistributionPoint__0.setComponentType (Py.NamedTypes [
    Py.OptionalNamedType "distributionPoint" (Rfc5280.DistributionPointName.call.implicitTag (Py.Tag .context true 0)),
    Py.DefaultedNamedType "onlyContainsUserCerts" ((Py.univ.Boolean.call.implicitTag (Py.Tag .context false 1)).callInt 0),
    Py.DefaultedNamedType "onlyContainsCACerts" ((Py.univ.Boolean.call.implicitTag (Py.Tag .context false 2)).callInt 0),
    Py.OptionalNamedType "onlySomeReasons" (Rfc5280.ReasonFlags.call.implicitTag (Py.Tag .context false 3)),
    Py.DefaultedNamedType "indirectCRL" ((Py.univ.Boolean.call.implicitTag (Py.Tag .context false 4)).callInt 0),
    Py.DefaultedNamedType "onlyContainsAttributeCerts" ((Py.univ.Boolean.call.implicitTag (Py.Tag .context false 5)).callInt 0)])

/-- rfc5280.py:1213 -/
def id_ce_certificatePolicies : Py.Obj :=
  (Rfc5280._buildOid [.oid Rfc5280.id_ce, .num 32])

/-- rfc5280.py:1215 -/
def id_kp_emailProtection : Py.Obj :=
  (Rfc5280._buildOid [.oid Rfc5280.id_kp, .num 4])

/-- rfc5280.py:1218-1219 `class AccessDescription(univ.Sequence)` -/
def AccessDescription__0 : Py.Obj :=
  Py.univ.Sequence

/-- rfc5280.py:1222-1225 `AccessDescription.componentType = ...` -/
def AccessDescription : Py.Obj :=
  Rfc5280.AccessDescription__0.setComponentType (Py.NamedTypes [
    Py.NamedType "accessMethod" Py.univ.ObjectIdentifier.call,
    Py.NamedType "accessLocation" Rfc5280.GeneralName.call])

/-- rfc5280.py:1228-1229 `class IssuerAltName(GeneralNames)` -/
def IssuerAltName : Py.Obj :=
  Rfc5280.GeneralNames

/-- rfc5280.py:1232 -/
def id_ce_cRLDistributionPoints : Py.Obj :=
  (Rfc5280._buildOid [.oid Rfc5280.id_ce, .num 31])

/-- rfc5280.py:1234 -/
def holdInstruction : Py.Obj :=
  (Rfc5280._buildOid [.num 2, .num 2, .num 840, .num 10040, .num 2])

/-- rfc5280.py:1236 -/
def id_holdinstruction_callissuer : Py.Obj :=
  (Rfc5280._buildOid [.oid Rfc5280.holdInstruction, .num 2])

/-- rfc5280.py:1238 -/
def id_ce_subjectDirectoryAttributes : Py.Obj :=
  (Rfc5280._buildOid [.oid Rfc5280.id_ce, .num 9])

/-- rfc5280.py:1240 -/
def id_ce_issuingDistributionPoint : Py.Obj :=
  (Rfc5280._buildOid [.oid Rfc5280.id_ce, .num 28])

/-- rfc5280.py:1243-1244 `class DistributionPoint(univ.Sequence)` -/
def DistributionPoint__0 : Py.Obj :=
  Py.univ.Sequence

/-- rfc5280.py:1247-1254 `DistributionPoint.componentType = ...` -/
def DistributionPoint : Py.Obj :=
  Rfc5280.DistributionPoint__0.setComponentType (Py.NamedTypes [
    Py.OptionalNamedType "distributionPoint" (Rfc5280.DistributionPointName.call.implicitTag (Py.Tag .context true 0)),
    Py.OptionalNamedType "reasons" (Rfc5280.ReasonFlags.call.implicitTag (Py.Tag .context false 1)),
    Py.OptionalNamedType "cRLIssuer" (Rfc5280.GeneralNames.call.implicitTag (Py.Tag .context false 2))])

/-- rfc5280.py:1257-1258 `class CRLDistributionPoints(univ.SequenceOf)` -/
def CRLDistributionPoints__0 : Py.Obj :=
  Py.univ.SequenceOf

/-- rfc5280.py:1261 `CRLDistributionPoints.componentType = ...` -/
def CRLDistributionPoints__1 : Py.Obj :=
  Rfc5280.CRLDistributionPoints__0.setComponentTypeOf Rfc5280.DistributionPoint.call

/-- rfc5280.py:1262 `CRLDistributionPoints.sizeSpec = ...` -/
def CRLDistributionPoints : Py.Obj :=
  Rfc5280.CRLDistributionPoints__1.setSizeSpec (Py.ValueSizeConstraint (.fin 1) Rfc5280.MAX)

/-- rfc5280.py:1265-1266 `class GeneralSubtrees(univ.SequenceOf)` -/
def GeneralSubtrees__0 : Py.Obj :=
  Py.univ.SequenceOf

/-- rfc5280.py:1269 `GeneralSubtrees.componentType = ...` -/
def GeneralSubtrees__1 : Py.Obj :=
  Rfc5280.GeneralSubtrees__0.setComponentTypeOf Rfc5280.GeneralSubtree.call

/-- rfc5280.py:1270 `GeneralSubtrees.sizeSpec = ...` -/
def GeneralSubtrees : Py.Obj :=
  Rfc5280.GeneralSubtrees__1.setSizeSpec (Py.ValueSizeConstraint (.fin 1) Rfc5280.MAX)

/-- rfc5280.py:1273-1274 `class NameConstraints(univ.Sequence)` -/
def NameConstraints__0 : Py.Obj :=
  Py.univ.Sequence

/-- rfc5280.py:1277-1282 `NameConstraints.componentType = ...` -/
def NameConstraints : Py.Obj :=
  Rfc5280.NameConstraints__0.setComponentType (Py.NamedTypes [
    Py.OptionalNamedType "permittedSubtrees" (Rfc5280.GeneralSubtrees.call.implicitTag (Py.Tag .context false 0)),
    Py.OptionalNamedType "excludedSubtrees" (Rfc5280.GeneralSubtrees.call.implicitTag (Py.Tag .context false 1))])

/-- rfc5280.py:1285-1286 `class SubjectDirectoryAttributes(univ.SequenceOf)` -/
def SubjectDirectoryAttributes__0 : Py.Obj :=
  Py.univ.SequenceOf

/-- rfc5280.py:1289 `SubjectDirectoryAttributes.componentType = ...` -/
def SubjectDirectoryAttributes__1 : Py.Obj :=
  Rfc5280.SubjectDirectoryAttributes__0.setComponentTypeOf Rfc5280.Attribute.call

/-- rfc5280.py:1290 `SubjectDirectoryAttributes.sizeSpec = ...` -/
def SubjectDirectoryAttributes : Py.Obj :=
  Rfc5280.SubjectDirectoryAttributes__1.setSizeSpec (Py.ValueSizeConstraint (.fin 1) Rfc5280.MAX)

/-- rfc5280.py:1292 -/
def id_kp_OCSPSigning : Py.Obj :=
  (Rfc5280._buildOid [.oid Rfc5280.id_kp, .num 9])

/-- rfc5280.py:1294 -/
def id_kp_timeStamping : Py.Obj :=
  (Rfc5280._buildOid [.oid Rfc5280.id_kp, .num 8])

/-- rfc5280.py:1297-1298 `class DisplayText(univ.Choice)` -/
def DisplayText__0 : Py.Obj :=
  Py.univ.Choice

/-- rfc5280.py:1301-1307 `DisplayText.componentType = ...` -/
def DisplayText : Py.Obj :=
  Rfc5280.DisplayText__0.setComponentType (Py.NamedTypes [
    Py.NamedType "ia5String" (Py.char.IA5String.call.addSubtypeSpec (Py.ValueSizeConstraint (.fin 1) (.fin 200))),
    Py.NamedType "visibleString" (Py.char.VisibleString.call.addSubtypeSpec (Py.ValueSizeConstraint (.fin 1) (.fin 200))),
    Py.NamedType "bmpString" (Py.char.BMPString.call.addSubtypeSpec (Py.ValueSizeConstraint (.fin 1) (.fin 200))),
    Py.NamedType "utf8String" (Py.char.UTF8String.call.addSubtypeSpec (Py.ValueSizeConstraint (.fin 1) (.fin 200)))])

/-- rfc5280.py:1310-1311 `class NoticeReference(univ.Sequence)` -/
def NoticeReference__0 : Py.Obj :=
  Py.univ.Sequence

/-- rfc5280.py:1314-1317 `NoticeReference.componentType = ...` -/
def NoticeReference : Py.Obj :=
  Rfc5280.NoticeReference__0.setComponentType (Py.NamedTypes [
    Py.NamedType "organization" Rfc5280.DisplayText.call,
    Py.NamedType "noticeNumbers" (Py.univ.SequenceOf.call.setComponentTypeOf Py.univ.Integer.call)])

/-- rfc5280.py:1320-1321 `class UserNotice(univ.Sequence)` -/
def UserNotice__0 : Py.Obj :=
  Py.univ.Sequence

/-- rfc5280.py:1324-1327 `UserNotice.componentType = ...` -/
def UserNotice : Py.Obj :=
  Rfc5280.UserNotice__0.setComponentType (Py.NamedTypes [
    Py.OptionalNamedType "noticeRef" Rfc5280.NoticeReference.call,
    Py.OptionalNamedType "explicitText" Rfc5280.DisplayText.call])

/-- rfc5280.py:1330-1331 `class PolicyQualifierId(univ.ObjectIdentifier)` -/
def PolicyQualifierId : Py.Obj :=
  Py.univ.ObjectIdentifier

/-- rfc5280.py:1334-1336 -/
def policyQualifierInfoMap : Py.Entries :=
  []

/-- rfc5280.py:1339-1346 `class PolicyQualifierInfo(univ.Sequence)` -/
def PolicyQualifierInfo : Py.Obj :=
  Py.univ.Sequence.setComponentType (Py.NamedTypes [
    Py.NamedType "policyQualifierId" Rfc5280.PolicyQualifierId.call,
    Py.NamedType "qualifier" Py.univ.Any.call (openType := some (Py.OpenType "policyQualifierId" (Py.map 7 "rfc5280.policyQualifierInfoMap")))])

/-- rfc5280.py:1349-1350 `class CertPolicyId(univ.ObjectIdentifier)` -/
def CertPolicyId : Py.Obj :=
  Py.univ.ObjectIdentifier

/-- rfc5280.py:1353-1354 `class PolicyInformation(univ.Sequence)` -/
def PolicyInformation__0 : Py.Obj :=
  Py.univ.Sequence

/-- rfc5280.py:1357-1360 `PolicyInformation.componentType = ...` -/
def PolicyInformation : Py.Obj :=
  Rfc5280.PolicyInformation__0.setComponentType (Py.NamedTypes [
    Py.NamedType "policyIdentifier" Rfc5280.CertPolicyId.call,
    Py.OptionalNamedType "policyQualifiers" (Py.univ.SequenceOf.call.setComponentTypeOf Rfc5280.PolicyQualifierInfo.call)])

/-- rfc5280.py:1363-1364 `class CertificatePolicies(univ.SequenceOf)` -/
def CertificatePolicies__0 : Py.Obj :=
  Py.univ.SequenceOf

/-- rfc5280.py:1367 `CertificatePolicies.componentType = ...` -/
def CertificatePolicies__1 : Py.Obj :=
  Rfc5280.CertificatePolicies__0.setComponentTypeOf Rfc5280.PolicyInformation.call

/-- rfc5280.py:1368 `CertificatePolicies.sizeSpec = ...` -/
def CertificatePolicies : Py.Obj :=
  Rfc5280.CertificatePolicies__1.setSizeSpec (Py.ValueSizeConstraint (.fin 1) Rfc5280.MAX)

/-- rfc5280.py:1371-1372 `class SubjectAltName(GeneralNames)` -/
def SubjectAltName : Py.Obj :=
  Rfc5280.GeneralNames

/-- rfc5280.py:1375 -/
def id_ce_basicConstraints : Py.Obj :=
  (Rfc5280._buildOid [.oid Rfc5280.id_ce, .num 19])

/-- rfc5280.py:1377 -/
def id_ce_authorityKeyIdentifier : Py.Obj :=
  (Rfc5280._buildOid [.oid Rfc5280.id_ce, .num 35])

/-- rfc5280.py:1379 -/
def id_kp_codeSigning : Py.Obj :=
  (Rfc5280._buildOid [.oid Rfc5280.id_kp, .num 3])

/-- rfc5280.py:1382-1383 `class BasicConstraints(univ.Sequence)` -/
def BasicConstraints__0 : Py.Obj :=
  Py.univ.Sequence

/-- rfc5280.py:1386-1390 `BasicConstraints.componentType = ...` -/
def BasicConstraints : Py.Obj :=
  Rfc5280.BasicConstraints__0.setComponentType (Py.NamedTypes [
    Py.DefaultedNamedType "cA" (Py.univ.Boolean.call.callInt 0),
    Py.OptionalNamedType "pathLenConstraint" (Py.univ.Integer.call.addSubtypeSpec (Py.ValueRangeConstraint (.fin 0) Rfc5280.MAX))])

/-- rfc5280.py:1392 -/
def id_ce_certificateIssuer : Py.Obj :=
  (Rfc5280._buildOid [.oid Rfc5280.id_ce, .num 29])

/-- rfc5280.py:1395-1396 `class PolicyMappings(univ.SequenceOf)` -/
def PolicyMappings__0 : Py.Obj :=
  Py.univ.SequenceOf

/-- rfc5280.py:1399-1404 `PolicyMappings.componentType = ...` -/
def PolicyMappings__1 : Py.Obj :=
  Rfc5280.PolicyMappings__0.setComponentTypeOf (Py.univ.Sequence.call.setComponentType (Py.NamedTypes [
    Py.NamedType "issuerDomainPolicy" Rfc5280.CertPolicyId.call,
    Py.NamedType "subjectDomainPolicy" Rfc5280.CertPolicyId.call]))

/-- rfc5280.py:1406 `PolicyMappings.sizeSpec = ...` -/
def PolicyMappings : Py.Obj :=
  Rfc5280.PolicyMappings__1.setSizeSpec (Py.ValueSizeConstraint (.fin 1) Rfc5280.MAX)

/-- rfc5280.py:1409-1410 `class InhibitAnyPolicy(SkipCerts)` -/
def InhibitAnyPolicy : Py.Obj :=
  Rfc5280.SkipCerts

/-- rfc5280.py:1413 -/
def anyPolicy : Py.Obj :=
  (Rfc5280._buildOid [.oid Rfc5280.id_ce_certificatePolicies, .num 0])

/-- rfc5280.py:1416-1417 `class CRLNumber(univ.Integer)` -/
def CRLNumber__0 : Py.Obj :=
  Py.univ.Integer

/-- rfc5280.py:1420 `CRLNumber.subtypeSpec = ...` -/
def CRLNumber : Py.Obj :=
  Rfc5280.CRLNumber__0.setSubtypeSpec (Py.ValueRangeConstraint (.fin 0) Rfc5280.MAX)

/-- rfc5280.py:1423-1424 `class BaseCRLNumber(CRLNumber)` -/
def BaseCRLNumber : Py.Obj :=
  Rfc5280.CRLNumber

/-- rfc5280.py:1427 -/
def id_ce_nameConstraints : Py.Obj :=
  (Rfc5280._buildOid [.oid Rfc5280.id_ce, .num 30])

/-- rfc5280.py:1429 -/
def id_kp_serverAuth : Py.Obj :=
  (Rfc5280._buildOid [.oid Rfc5280.id_kp, .num 1])

/-- rfc5280.py:1431 -/
def id_ce_freshestCRL : Py.Obj :=
  (Rfc5280._buildOid [.oid Rfc5280.id_ce, .num 46])

/-- rfc5280.py:1433 -/
def id_ce_cRLReasons : Py.Obj :=
  (Rfc5280._buildOid [.oid Rfc5280.id_ce, .num 21])

/-- rfc5280.py:1435 -/
def id_ce_extKeyUsage : Py.Obj :=
  (Rfc5280._buildOid [.oid Rfc5280.id_ce, .num 37])

/-- rfc5280.py:1438-1439 `class KeyIdentifier(univ.OctetString)` -/
def KeyIdentifier : Py.Obj :=
  Py.univ.OctetString

/-- rfc5280.py:1442-1443 `class AuthorityKeyIdentifier(univ.Sequence)` -/
def AuthorityKeyIdentifier__0 : Py.Obj :=
  Py.univ.Sequence

/-- rfc5280.py:1446-1453 `AuthorityKeyIdentifier.componentType = ...` -/
def AuthorityKeyIdentifier : Py.Obj :=
  Rfc5280.AuthorityKeyIdentifier__0.setComponentType (Py.NamedTypes [
    Py.OptionalNamedType "keyIdentifier" (Rfc5280.KeyIdentifier.call.implicitTag (Py.Tag .context false 0)),
    Py.OptionalNamedType "authorityCertIssuer" (Rfc5280.GeneralNames.call.implicitTag (Py.Tag .context false 1)),
    Py.OptionalNamedType "authorityCertSerialNumber" (Rfc5280.CertificateSerialNumber.call.implicitTag (Py.Tag .context false 2))])

/-- rfc5280.py:1456-1457 `class FreshestCRL(CRLDistributionPoints)` -/
def FreshestCRL : Py.Obj :=
  Rfc5280.CRLDistributionPoints

/-- rfc5280.py:1460 -/
def id_ce_policyConstraints : Py.Obj :=
  (Rfc5280._buildOid [.oid Rfc5280.id_ce, .num 36])

/-- rfc5280.py:1462 -/
def id_pe_authorityInfoAccess : Py.Obj :=
  (Rfc5280._buildOid [.oid Rfc5280.id_pe, .num 1])

/-- rfc5280.py:1465-1466 `class AuthorityInfoAccessSyntax(univ.SequenceOf)` -/
def AuthorityInfoAccessSyntax__0 : Py.Obj :=
  Py.univ.SequenceOf

/-- rfc5280.py:1469 `AuthorityInfoAccessSyntax.componentType = ...` -/
def AuthorityInfoAccessSyntax__1 : Py.Obj :=
  Rfc5280.AuthorityInfoAccessSyntax__0.setComponentTypeOf Rfc5280.AccessDescription.call

/-- rfc5280.py:1470 `AuthorityInfoAccessSyntax.sizeSpec = ...` -/
def AuthorityInfoAccessSyntax : Py.Obj :=
  Rfc5280.AuthorityInfoAccessSyntax__1.setSizeSpec (Py.ValueSizeConstraint (.fin 1) Rfc5280.MAX)

/-- rfc5280.py:1472 -/
def id_holdinstruction_none : Py.Obj :=
  (Rfc5280._buildOid [.oid Rfc5280.holdInstruction, .num 1])

/-- rfc5280.py:1475-1476 `class CPSuri(char.IA5String)` -/
def CPSuri : Py.Obj :=
  Py.char.IA5String

/-- rfc5280.py:1479 -/
def id_pe_subjectInfoAccess : Py.Obj :=
  (Rfc5280._buildOid [.oid Rfc5280.id_pe, .num 11])

/-- rfc5280.py:1482-1483 `class SubjectKeyIdentifier(KeyIdentifier)` -/
def SubjectKeyIdentifier : Py.Obj :=
  Rfc5280.KeyIdentifier

/-- rfc5280.py:1486 -/
def id_ce_subjectAltName : Py.Obj :=
  (Rfc5280._buildOid [.oid Rfc5280.id_ce, .num 17])

/-- rfc5280.py:1489-1490 `class KeyPurposeId(univ.ObjectIdentifier)` -/
def KeyPurposeId : Py.Obj :=
  Py.univ.ObjectIdentifier

/-- rfc5280.py:1493-1494 `class ExtKeyUsageSyntax(univ.SequenceOf)` -/
def ExtKeyUsageSyntax__0 : Py.Obj :=
  Py.univ.SequenceOf

/-- rfc5280.py:1497 `ExtKeyUsageSyntax.componentType = ...` -/
def ExtKeyUsageSyntax__1 : Py.Obj :=
  Rfc5280.ExtKeyUsageSyntax__0.setComponentTypeOf Rfc5280.KeyPurposeId.call

/-- rfc5280.py:1498 `ExtKeyUsageSyntax.sizeSpec = ...` -/
def ExtKeyUsageSyntax : Py.Obj :=
  Rfc5280.ExtKeyUsageSyntax__1.setSizeSpec (Py.ValueSizeConstraint (.fin 1) Rfc5280.MAX)

/-- rfc5280.py:1501-1502 `class HoldInstructionCode(univ.ObjectIdentifier)` -/
def HoldInstructionCode : Py.Obj :=
  Py.univ.ObjectIdentifier

/-- rfc5280.py:1505 -/
def id_ce_deltaCRLIndicator : Py.Obj :=
  (Rfc5280._buildOid [.oid Rfc5280.id_ce, .num 27])

/-- rfc5280.py:1507 -/
def id_ce_keyUsage : Py.Obj :=
  (Rfc5280._buildOid [.oid Rfc5280.id_ce, .num 15])

/-- rfc5280.py:1509 -/
def id_ce_holdInstructionCode : Py.Obj :=
  (Rfc5280._buildOid [.oid Rfc5280.id_ce, .num 23])

/-- rfc5280.py:1512-1513 `class SubjectInfoAccessSyntax(univ.SequenceOf)` -/
def SubjectInfoAccessSyntax__0 : Py.Obj :=
  Py.univ.SequenceOf

/-- rfc5280.py:1516 `SubjectInfoAccessSyntax.componentType = ...` -/
def SubjectInfoAccessSyntax__1 : Py.Obj :=
  Rfc5280.SubjectInfoAccessSyntax__0.setComponentTypeOf Rfc5280.AccessDescription.call

/-- rfc5280.py:1517 `SubjectInfoAccessSyntax.sizeSpec = ...` -/
def SubjectInfoAccessSyntax : Py.Obj :=
  Rfc5280.SubjectInfoAccessSyntax__1.setSizeSpec (Py.ValueSizeConstraint (.fin 1) Rfc5280.MAX)

/-- rfc5280.py:1520-1521 `class InvalidityDate(useful.GeneralizedTime)` -/
def InvalidityDate : Py.Obj :=
  Py.useful.GeneralizedTime

/-- rfc5280.py:1524-1525 `class KeyUsage(univ.BitString)` -/
def KeyUsage__0 : Py.Obj :=
  Py.univ.BitString

/-- rfc5280.py:1528-1538 `KeyUsage.namedValues = ...` -/
def KeyUsage : Py.Obj :=
  Rfc5280.KeyUsage__0.setNamedValues (Py.NamedValues [("digitalSignature", 0), ("nonRepudiation", 1), ("keyEncipherment", 2), ("dataEncipherment", 3), ("keyAgreement", 4), ("keyCertSign", 5), ("cRLSign", 6), ("encipherOnly", 7), ("decipherOnly", 8)])

/-- rfc5280.py:1540 -/
def id_ce_invalidityDate : Py.Obj :=
  (Rfc5280._buildOid [.oid Rfc5280.id_ce, .num 24])

/-- rfc5280.py:1542 -/
def id_ce_policyMappings : Py.Obj :=
  (Rfc5280._buildOid [.oid Rfc5280.id_ce, .num 33])

/-- rfc5280.py:1544 -/
def anyExtendedKeyUsage : Py.Obj :=
  (Rfc5280._buildOid [.oid Rfc5280.id_ce_extKeyUsage, .num 0])

/-- rfc5280.py:1546 -/
def id_ce_privateKeyUsagePeriod : Py.Obj :=
  (Rfc5280._buildOid [.oid Rfc5280.id_ce, .num 16])

/-- rfc5280.py:1548 -/
def id_ce_cRLNumber : Py.Obj :=
  (Rfc5280._buildOid [.oid Rfc5280.id_ce, .num 20])

/-- rfc5280.py:1551-1552 `class CertificateIssuer(GeneralNames)` -/
def CertificateIssuer : Py.Obj :=
  Rfc5280.GeneralNames

/-- rfc5280.py:1555 -/
def id_holdinstruction_reject : Py.Obj :=
  (Rfc5280._buildOid [.oid Rfc5280.holdInstruction, .num 3])

/-- rfc5280.py:1558-1559 `class PolicyConstraints(univ.Sequence)` -/
def PolicyConstraints__0 : Py.Obj :=
  Py.univ.Sequence

/-- rfc5280.py:1562-1567 `PolicyConstraints.componentType = ...` -/
def PolicyConstraints : Py.Obj :=
  Rfc5280.PolicyConstraints__0.setComponentType (Py.NamedTypes [
    Py.OptionalNamedType "requireExplicitPolicy" (Rfc5280.SkipCerts.call.implicitTag (Py.Tag .context false 0)),
    Py.OptionalNamedType "inhibitPolicyMapping" (Rfc5280.SkipCerts.call.implicitTag (Py.Tag .context false 1))])

/-- rfc5280.py:1569 -/
def id_kp_clientAuth : Py.Obj :=
  (Rfc5280._buildOid [.oid Rfc5280.id_kp, .num 2])

/-- rfc5280.py:1571 -/
def id_ce_subjectKeyIdentifier : Py.Obj :=
  (Rfc5280._buildOid [.oid Rfc5280.id_ce, .num 14])

/-- rfc5280.py:1573 -/
def id_ce_inhibitAnyPolicy : Py.Obj :=
  (Rfc5280._buildOid [.oid Rfc5280.id_ce, .num 54])

/-- rfc5280.py:1577-1601 -/
def _oraddressExtensionAttributeMapUpdate : Py.Entries :=
  [(Rfc5280.common_name.value, Rfc5280.CommonName.call.ty),
    (Rfc5280.teletex_common_name.value, Rfc5280.TeletexCommonName.call.ty),
    (Rfc5280.teletex_organization_name.value, Rfc5280.TeletexOrganizationName.call.ty),
    (Rfc5280.teletex_personal_name.value, Rfc5280.TeletexPersonalName.call.ty),
    (Rfc5280.teletex_organizational_unit_names.value, Rfc5280.TeletexOrganizationalUnitNames.call.ty),
    (Rfc5280.pds_name.value, Rfc5280.PDSName.call.ty),
    (Rfc5280.physical_delivery_country_name.value, Rfc5280.PhysicalDeliveryCountryName.call.ty),
    (Rfc5280.postal_code.value, Rfc5280.PostalCode.call.ty),
    (Rfc5280.physical_delivery_office_name.value, Rfc5280.PhysicalDeliveryOfficeName.call.ty),
    (Rfc5280.physical_delivery_office_number.value, Rfc5280.PhysicalDeliveryOfficeNumber.call.ty),
    (Rfc5280.extension_OR_address_components.value, Rfc5280.ExtensionORAddressComponents.call.ty),
    (Rfc5280.physical_delivery_personal_name.value, Rfc5280.PhysicalDeliveryPersonalName.call.ty),
    (Rfc5280.physical_delivery_organization_name.value, Rfc5280.PhysicalDeliveryOrganizationName.call.ty),
    (Rfc5280.extension_physical_delivery_address_components.value, Rfc5280.ExtensionPhysicalDeliveryAddressComponents.call.ty),
    (Rfc5280.unformatted_postal_address.value, Rfc5280.UnformattedPostalAddress.call.ty),
    (Rfc5280.street_address.value, Rfc5280.StreetAddress.call.ty),
    (Rfc5280.post_office_box_address.value, Rfc5280.PostOfficeBoxAddress.call.ty),
    (Rfc5280.poste_restante_address.value, Rfc5280.PosteRestanteAddress.call.ty),
    (Rfc5280.unique_postal_name.value, Rfc5280.UniquePostalName.call.ty),
    (Rfc5280.local_postal_attributes.value, Rfc5280.LocalPostalAttributes.call.ty),
    (Rfc5280.extended_network_address.value, Rfc5280.ExtendedNetworkAddress.call.ty),
    (Rfc5280.terminal_type.value, Rfc5280.TerminalType.call.ty),
    (Rfc5280.teletex_domain_defined_attributes.value, Rfc5280.TeletexDomainDefinedAttributes.call.ty)]

/-- rfc5280.py:1608-1626 -/
def _certificateAttributesMapUpdate : Py.Entries :=
  [(Rfc5280.id_at_name.value, Rfc5280.X520name.call.ty),
    (Rfc5280.id_at_surname.value, Rfc5280.X520name.call.ty),
    (Rfc5280.id_at_givenName.value, Rfc5280.X520name.call.ty),
    (Rfc5280.id_at_initials.value, Rfc5280.X520name.call.ty),
    (Rfc5280.id_at_generationQualifier.value, Rfc5280.X520name.call.ty),
    (Rfc5280.id_at_commonName.value, Rfc5280.X520CommonName.call.ty),
    (Rfc5280.id_at_localityName.value, Rfc5280.X520LocalityName.call.ty),
    (Rfc5280.id_at_stateOrProvinceName.value, Rfc5280.X520StateOrProvinceName.call.ty),
    (Rfc5280.id_at_organizationName.value, Rfc5280.X520OrganizationName.call.ty),
    (Rfc5280.id_at_organizationalUnitName.value, Rfc5280.X520OrganizationalUnitName.call.ty),
    (Rfc5280.id_at_title.value, Rfc5280.X520Title.call.ty),
    (Rfc5280.id_at_dnQualifier.value, Rfc5280.X520dnQualifier.call.ty),
    (Rfc5280.id_at_countryName.value, Rfc5280.X520countryName.call.ty),
    (Rfc5280.id_at_serialNumber.value, Rfc5280.X520SerialNumber.call.ty),
    (Rfc5280.id_at_pseudonym.value, Rfc5280.X520Pseudonym.call.ty),
    (Rfc5280.id_domainComponent.value, Rfc5280.DomainComponent.call.ty),
    (Rfc5280.id_emailAddress.value, Rfc5280.EmailAddress.call.ty)]

/-- rfc5280.py:1633-1656 -/
def _certificateExtensionsMap : Py.Entries :=
  [(Rfc5280.id_ce_authorityKeyIdentifier.value, Rfc5280.AuthorityKeyIdentifier.call.ty),
    (Rfc5280.id_ce_subjectKeyIdentifier.value, Rfc5280.SubjectKeyIdentifier.call.ty),
    (Rfc5280.id_ce_keyUsage.value, Rfc5280.KeyUsage.call.ty),
    (Rfc5280.id_ce_privateKeyUsagePeriod.value, Rfc5280.PrivateKeyUsagePeriod.call.ty),
    (Rfc5280.id_ce_certificatePolicies.value, Rfc5280.CertificatePolicies.call.ty),
    (Rfc5280.id_ce_policyMappings.value, Rfc5280.PolicyMappings.call.ty),
    (Rfc5280.id_ce_subjectAltName.value, Rfc5280.SubjectAltName.call.ty),
    (Rfc5280.id_ce_issuerAltName.value, Rfc5280.IssuerAltName.call.ty),
    (Rfc5280.id_ce_subjectDirectoryAttributes.value, Rfc5280.SubjectDirectoryAttributes.call.ty),
    (Rfc5280.id_ce_basicConstraints.value, Rfc5280.BasicConstraints.call.ty),
    (Rfc5280.id_ce_nameConstraints.value, Rfc5280.NameConstraints.call.ty),
    (Rfc5280.id_ce_policyConstraints.value, Rfc5280.PolicyConstraints.call.ty),
    (Rfc5280.id_ce_extKeyUsage.value, Rfc5280.ExtKeyUsageSyntax.call.ty),
    (Rfc5280.id_ce_cRLDistributionPoints.value, Rfc5280.CRLDistributionPoints.call.ty),
    (Rfc5280.id_pe_authorityInfoAccess.value, Rfc5280.AuthorityInfoAccessSyntax.call.ty),
    (Rfc5280.id_ce_cRLNumber.value, Py.univ.Integer.call.ty),
    (Rfc5280.id_ce_deltaCRLIndicator.value, Rfc5280.BaseCRLNumber.call.ty),
    (Rfc5280.id_ce_issuingDistributionPoint.value, Rfc5280.IssuingDistributionPoint.call.ty),
    (Rfc5280.id_ce_cRLReasons.value, Rfc5280.CRLReason.call.ty),
    (Rfc5280.id_ce_holdInstructionCode.value, Py.univ.ObjectIdentifier.call.ty),
    (Rfc5280.id_ce_invalidityDate.value, Py.useful.GeneralizedTime.call.ty),
    (Rfc5280.id_ce_certificateIssuer.value, Rfc5280.GeneralNames.call.ty)]

/-- Modules of this package imported by rfc5280.py, in textual order. -/
def imports : List Py.Ident :=
  []

/-- Dictionary operations executed when rfc5280.py is imported, in program order. -/
def effects : List Py.Effect :=
  [.create (Py.map 3 "rfc5280.algorithmIdentifierMap") Rfc5280.algorithmIdentifierMap /- rfc5280.py:286 -/,
   .create (Py.map 4 "rfc5280.certificateAttributesMap") Rfc5280.certificateAttributesMap /- rfc5280.py:312 -/,
   .create (Py.map 48 "rfc5280.certificateExtensionsMap") Rfc5280.certificateExtensionsMap /- rfc5280.py:392-393 -/,
   .create (Py.map 5 "rfc5280.oraddressExtensionAttributeMap") Rfc5280.oraddressExtensionAttributeMap /- rfc5280.py:395-396 -/,
   .create (Py.map 6 "rfc5280.anotherNameMap") Rfc5280.anotherNameMap /- rfc5280.py:1083-1085 -/,
   .create (Py.map 7 "rfc5280.policyQualifierInfoMap") Rfc5280.policyQualifierInfoMap /- rfc5280.py:1334-1336 -/,
   .create (Py.map 79 "rfc5280._oraddressExtensionAttributeMapUpdate") Rfc5280._oraddressExtensionAttributeMapUpdate /- rfc5280.py:1577-1601 -/,
   .update (Py.map 5 "rfc5280.oraddressExtensionAttributeMap") Rfc5280._oraddressExtensionAttributeMapUpdate /- rfc5280.py:1603 -/,
   .create (Py.map 80 "rfc5280._certificateAttributesMapUpdate") Rfc5280._certificateAttributesMapUpdate /- rfc5280.py:1608-1626 -/,
   .update (Py.map 4 "rfc5280.certificateAttributesMap") Rfc5280._certificateAttributesMapUpdate /- rfc5280.py:1628 -/,
   .create (Py.map 81 "rfc5280._certificateExtensionsMap") Rfc5280._certificateExtensionsMap /- rfc5280.py:1633-1656 -/,
   .update (Py.map 48 "rfc5280.certificateExtensionsMap") Rfc5280._certificateExtensionsMap /- rfc5280.py:1658 -/]

/-- ASN.1 types rfc5280.py binds at module level (final version of each name), plus nested classes. -/
def classes : List (String × Py.Obj) :=
  [("rfc5280.TerminalType", Rfc5280.TerminalType),
   ("rfc5280.Extension", Rfc5280.Extension),
   ("rfc5280.Extensions", Rfc5280.Extensions),
   ("rfc5280.UnformattedPostalAddress", Rfc5280.UnformattedPostalAddress),
   ("rfc5280.X520OrganizationName", Rfc5280.X520OrganizationName),
   ("rfc5280.PostalCode", Rfc5280.PostalCode),
   ("rfc5280.DomainComponent", Rfc5280.DomainComponent),
   ("rfc5280.AttributeType", Rfc5280.AttributeType),
   ("rfc5280.PDSParameter", Rfc5280.PDSParameter),
   ("rfc5280.PhysicalDeliveryPersonalName", Rfc5280.PhysicalDeliveryPersonalName),
   ("rfc5280.TeletexDomainDefinedAttribute", Rfc5280.TeletexDomainDefinedAttribute),
   ("rfc5280.TeletexDomainDefinedAttributes", Rfc5280.TeletexDomainDefinedAttributes),
   ("rfc5280.X520LocalityName", Rfc5280.X520LocalityName),
   ("rfc5280.PersonalName", Rfc5280.PersonalName),
   ("rfc5280.OrganizationalUnitName", Rfc5280.OrganizationalUnitName),
   ("rfc5280.Version", Rfc5280.Version),
   ("rfc5280.CertificateSerialNumber", Rfc5280.CertificateSerialNumber),
   ("rfc5280.AlgorithmIdentifier", Rfc5280.AlgorithmIdentifier),
   ("rfc5280.Time", Rfc5280.Time),
   ("rfc5280.AttributeValue", Rfc5280.AttributeValue),
   ("rfc5280.AttributeTypeAndValue", Rfc5280.AttributeTypeAndValue),
   ("rfc5280.RelativeDistinguishedName", Rfc5280.RelativeDistinguishedName),
   ("rfc5280.RDNSequence", Rfc5280.RDNSequence),
   ("rfc5280.Name", Rfc5280.Name),
   ("rfc5280.TBSCertList", Rfc5280.TBSCertList),
   ("rfc5280.CertificateList", Rfc5280.CertificateList),
   ("rfc5280.PhysicalDeliveryOfficeName", Rfc5280.PhysicalDeliveryOfficeName),
   ("rfc5280.ExtensionAttribute", Rfc5280.ExtensionAttribute),
   ("rfc5280.X520dnQualifier", Rfc5280.X520dnQualifier),
   ("rfc5280.PosteRestanteAddress", Rfc5280.PosteRestanteAddress),
   ("rfc5280.UniqueIdentifier", Rfc5280.UniqueIdentifier),
   ("rfc5280.Validity", Rfc5280.Validity),
   ("rfc5280.SubjectPublicKeyInfo", Rfc5280.SubjectPublicKeyInfo),
   ("rfc5280.TBSCertificate", Rfc5280.TBSCertificate),
   ("rfc5280.X520name", Rfc5280.X520name),
   ("rfc5280.X121Address", Rfc5280.X121Address),
   ("rfc5280.NetworkAddress", Rfc5280.NetworkAddress),
   ("rfc5280.PhysicalDeliveryCountryName", Rfc5280.PhysicalDeliveryCountryName),
   ("rfc5280.X520Pseudonym", Rfc5280.X520Pseudonym),
   ("rfc5280.AdministrationDomainName", Rfc5280.AdministrationDomainName),
   ("rfc5280.PresentationAddress", Rfc5280.PresentationAddress),
   ("rfc5280.ExtendedNetworkAddress", Rfc5280.ExtendedNetworkAddress),
   ("rfc5280.TeletexOrganizationName", Rfc5280.TeletexOrganizationName),
   ("rfc5280.TerminalIdentifier", Rfc5280.TerminalIdentifier),
   ("rfc5280.StreetAddress", Rfc5280.StreetAddress),
   ("rfc5280.ExtensionAttributes", Rfc5280.ExtensionAttributes),
   ("rfc5280.ExtensionORAddressComponents", Rfc5280.ExtensionORAddressComponents),
   ("rfc5280.X520OrganizationalUnitName", Rfc5280.X520OrganizationalUnitName),
   ("rfc5280.LocalPostalAttributes", Rfc5280.LocalPostalAttributes),
   ("rfc5280.X520Title", Rfc5280.X520Title),
   ("rfc5280.X520StateOrProvinceName", Rfc5280.X520StateOrProvinceName),
   ("rfc5280.X520countryName", Rfc5280.X520countryName),
   ("rfc5280.X520SerialNumber", Rfc5280.X520SerialNumber),
   ("rfc5280.Attribute", Rfc5280.Attribute),
   ("rfc5280.ExtensionPhysicalDeliveryAddressComponents", Rfc5280.ExtensionPhysicalDeliveryAddressComponents),
   ("rfc5280.EmailAddress", Rfc5280.EmailAddress),
   ("rfc5280.BuiltInDomainDefinedAttribute", Rfc5280.BuiltInDomainDefinedAttribute),
   ("rfc5280.BuiltInDomainDefinedAttributes", Rfc5280.BuiltInDomainDefinedAttributes),
   ("rfc5280.X520CommonName", Rfc5280.X520CommonName),
   ("rfc5280.TeletexCommonName", Rfc5280.TeletexCommonName),
   ("rfc5280.PhysicalDeliveryOrganizationName", Rfc5280.PhysicalDeliveryOrganizationName),
   ("rfc5280.NumericUserIdentifier", Rfc5280.NumericUserIdentifier),
   ("rfc5280.CountryName", Rfc5280.CountryName),
   ("rfc5280.OrganizationName", Rfc5280.OrganizationName),
   ("rfc5280.OrganizationalUnitNames", Rfc5280.OrganizationalUnitNames),
   ("rfc5280.PrivateDomainName", Rfc5280.PrivateDomainName),
   ("rfc5280.BuiltInStandardAttributes", Rfc5280.BuiltInStandardAttributes),
   ("rfc5280.ORAddress", Rfc5280.ORAddress),
   ("rfc5280.DistinguishedName", Rfc5280.DistinguishedName),
   ("rfc5280.PhysicalDeliveryOfficeNumber", Rfc5280.PhysicalDeliveryOfficeNumber),
   ("rfc5280.UniquePostalName", Rfc5280.UniquePostalName),
   ("rfc5280.PDSName", Rfc5280.PDSName),
   ("rfc5280.TeletexPersonalName", Rfc5280.TeletexPersonalName),
   ("rfc5280.PostOfficeBoxAddress", Rfc5280.PostOfficeBoxAddress),
   ("rfc5280.DirectoryString", Rfc5280.DirectoryString),
   ("rfc5280.CommonName", Rfc5280.CommonName),
   ("rfc5280.Certificate", Rfc5280.Certificate),
   ("rfc5280.TeletexOrganizationalUnitName", Rfc5280.TeletexOrganizationalUnitName),
   ("rfc5280.TeletexOrganizationalUnitNames", Rfc5280.TeletexOrganizationalUnitNames),
   ("rfc5280.SkipCerts", Rfc5280.SkipCerts),
   ("rfc5280.CRLReason", Rfc5280.CRLReason),
   ("rfc5280.PrivateKeyUsagePeriod", Rfc5280.PrivateKeyUsagePeriod),
   ("rfc5280.AnotherName", Rfc5280.AnotherName),
   ("rfc5280.EDIPartyName", Rfc5280.EDIPartyName),
   ("rfc5280.GeneralName", Rfc5280.GeneralName),
   ("rfc5280.BaseDistance", Rfc5280.BaseDistance),
   ("rfc5280.GeneralSubtree", Rfc5280.GeneralSubtree),
   ("rfc5280.GeneralNames", Rfc5280.GeneralNames),
   ("rfc5280.DistributionPointName", Rfc5280.DistributionPointName),
   ("rfc5280.ReasonFlags", Rfc5280.ReasonFlags),
   ("rfc5280.IssuingDistributionPoint", Rfc5280.IssuingDistributionPoint),
   ("rfc5280.AccessDescription", Rfc5280.AccessDescription),
   ("rfc5280.IssuerAltName", Rfc5280.IssuerAltName),
   ("rfc5280.DistributionPoint", Rfc5280.DistributionPoint),
   ("rfc5280.CRLDistributionPoints", Rfc5280.CRLDistributionPoints),
   ("rfc5280.GeneralSubtrees", Rfc5280.GeneralSubtrees),
   ("rfc5280.NameConstraints", Rfc5280.NameConstraints),
   ("rfc5280.SubjectDirectoryAttributes", Rfc5280.SubjectDirectoryAttributes),
   ("rfc5280.DisplayText", Rfc5280.DisplayText),
   ("rfc5280.NoticeReference", Rfc5280.NoticeReference),
   ("rfc5280.UserNotice", Rfc5280.UserNotice),
   ("rfc5280.PolicyQualifierId", Rfc5280.PolicyQualifierId),
   ("rfc5280.PolicyQualifierInfo", Rfc5280.PolicyQualifierInfo),
   ("rfc5280.CertPolicyId", Rfc5280.CertPolicyId),
   ("rfc5280.PolicyInformation", Rfc5280.PolicyInformation),
   ("rfc5280.CertificatePolicies", Rfc5280.CertificatePolicies),
   ("rfc5280.SubjectAltName", Rfc5280.SubjectAltName),
   ("rfc5280.BasicConstraints", Rfc5280.BasicConstraints),
   ("rfc5280.PolicyMappings", Rfc5280.PolicyMappings),
   ("rfc5280.InhibitAnyPolicy", Rfc5280.InhibitAnyPolicy),
   ("rfc5280.CRLNumber", Rfc5280.CRLNumber),
   ("rfc5280.BaseCRLNumber", Rfc5280.BaseCRLNumber),
   ("rfc5280.KeyIdentifier", Rfc5280.KeyIdentifier),
   ("rfc5280.AuthorityKeyIdentifier", Rfc5280.AuthorityKeyIdentifier),
   ("rfc5280.FreshestCRL", Rfc5280.FreshestCRL),
   ("rfc5280.AuthorityInfoAccessSyntax", Rfc5280.AuthorityInfoAccessSyntax),
   ("rfc5280.CPSuri", Rfc5280.CPSuri),
   ("rfc5280.SubjectKeyIdentifier", Rfc5280.SubjectKeyIdentifier),
   ("rfc5280.KeyPurposeId", Rfc5280.KeyPurposeId),
   ("rfc5280.ExtKeyUsageSyntax", Rfc5280.ExtKeyUsageSyntax),
   ("rfc5280.HoldInstructionCode", Rfc5280.HoldInstructionCode),
   ("rfc5280.SubjectInfoAccessSyntax", Rfc5280.SubjectInfoAccessSyntax),
   ("rfc5280.InvalidityDate", Rfc5280.InvalidityDate),
   ("rfc5280.KeyUsage", Rfc5280.KeyUsage),
   ("rfc5280.CertificateIssuer", Rfc5280.CertificateIssuer),
   ("rfc5280.PolicyConstraints", Rfc5280.PolicyConstraints)]

/-- pyasn1 instances rfc5280.py binds at module level. -/
def objects : List (String × Py.Obj) :=
  [("rfc5280.ub_e163_4_sub_address_length", Rfc5280.ub_e163_4_sub_address_length),
   ("rfc5280.ub_e163_4_number_length", Rfc5280.ub_e163_4_number_length),
   ("rfc5280.unformatted_postal_address", Rfc5280.unformatted_postal_address),
   ("rfc5280.physical_delivery_personal_name", Rfc5280.physical_delivery_personal_name),
   ("rfc5280.ub_unformatted_address_length", Rfc5280.ub_unformatted_address_length),
   ("rfc5280.ub_pds_parameter_length", Rfc5280.ub_pds_parameter_length),
   ("rfc5280.ub_pds_physical_address_lines", Rfc5280.ub_pds_physical_address_lines),
   ("rfc5280.ub_organization_name", Rfc5280.ub_organization_name),
   ("rfc5280.ub_x121_address_length", Rfc5280.ub_x121_address_length),
   ("rfc5280.pds_name", Rfc5280.pds_name),
   ("rfc5280.id_pkix", Rfc5280.id_pkix),
   ("rfc5280.id_kp", Rfc5280.id_kp),
   ("rfc5280.ub_postal_code_length", Rfc5280.ub_postal_code_length),
   ("rfc5280.ub_generation_qualifier_length", Rfc5280.ub_generation_qualifier_length),
   ("rfc5280.unique_postal_name", Rfc5280.unique_postal_name),
   ("rfc5280.ub_domain_defined_attribute_value_length", Rfc5280.ub_domain_defined_attribute_value_length),
   ("rfc5280.ub_match", Rfc5280.ub_match),
   ("rfc5280.id_at", Rfc5280.id_at),
   ("rfc5280.id_at_organizationalUnitName", Rfc5280.id_at_organizationalUnitName),
   ("rfc5280.terminal_type", Rfc5280.terminal_type),
   ("rfc5280.ub_surname_length", Rfc5280.ub_surname_length),
   ("rfc5280.id_ad", Rfc5280.id_ad),
   ("rfc5280.ub_domain_defined_attribute_type_length", Rfc5280.ub_domain_defined_attribute_type_length),
   ("rfc5280.ub_domain_defined_attributes", Rfc5280.ub_domain_defined_attributes),
   ("rfc5280.extended_network_address", Rfc5280.extended_network_address),
   ("rfc5280.ub_locality_name", Rfc5280.ub_locality_name),
   ("rfc5280.teletex_organization_name", Rfc5280.teletex_organization_name),
   ("rfc5280.ub_given_name_length", Rfc5280.ub_given_name_length),
   ("rfc5280.ub_initials_length", Rfc5280.ub_initials_length),
   ("rfc5280.ub_organizational_unit_name_length", Rfc5280.ub_organizational_unit_name_length),
   ("rfc5280.id_at_generationQualifier", Rfc5280.id_at_generationQualifier),
   ("rfc5280.ub_extension_attributes", Rfc5280.ub_extension_attributes),
   ("rfc5280.id_qt", Rfc5280.id_qt),
   ("rfc5280.id_qt_cps", Rfc5280.id_qt_cps),
   ("rfc5280.id_at_stateOrProvinceName", Rfc5280.id_at_stateOrProvinceName),
   ("rfc5280.id_at_title", Rfc5280.id_at_title),
   ("rfc5280.id_at_serialNumber", Rfc5280.id_at_serialNumber),
   ("rfc5280.poste_restante_address", Rfc5280.poste_restante_address),
   ("rfc5280.physical_delivery_office_name", Rfc5280.physical_delivery_office_name),
   ("rfc5280.ub_name", Rfc5280.ub_name),
   ("rfc5280.id_at_dnQualifier", Rfc5280.id_at_dnQualifier),
   ("rfc5280.ub_serial_number", Rfc5280.ub_serial_number),
   ("rfc5280.ub_pseudonym", Rfc5280.ub_pseudonym),
   ("rfc5280.pkcs_9", Rfc5280.pkcs_9),
   ("rfc5280.ub_integer_options", Rfc5280.ub_integer_options),
   ("rfc5280.id_at_commonName", Rfc5280.id_at_commonName),
   ("rfc5280.ub_organization_name_length", Rfc5280.ub_organization_name_length),
   ("rfc5280.id_ad_ocsp", Rfc5280.id_ad_ocsp),
   ("rfc5280.ub_country_name_numeric_length", Rfc5280.ub_country_name_numeric_length),
   ("rfc5280.ub_country_name_alpha_length", Rfc5280.ub_country_name_alpha_length),
   ("rfc5280.id_emailAddress", Rfc5280.id_emailAddress),
   ("rfc5280.common_name", Rfc5280.common_name),
   ("rfc5280.ub_domain_name_length", Rfc5280.ub_domain_name_length),
   ("rfc5280.ub_terminal_id_length", Rfc5280.ub_terminal_id_length),
   ("rfc5280.id_ad_caIssuers", Rfc5280.id_ad_caIssuers),
   ("rfc5280.id_at_countryName", Rfc5280.id_at_countryName),
   ("rfc5280.postal_code", Rfc5280.postal_code),
   ("rfc5280.id_at_givenName", Rfc5280.id_at_givenName),
   ("rfc5280.ub_title", Rfc5280.ub_title),
   ("rfc5280.ub_emailaddress_length", Rfc5280.ub_emailaddress_length),
   ("rfc5280.id_ad_caRepository", Rfc5280.id_ad_caRepository),
   ("rfc5280.ub_organizational_unit_name", Rfc5280.ub_organizational_unit_name),
   ("rfc5280.teletex_organizational_unit_names", Rfc5280.teletex_organizational_unit_names),
   ("rfc5280.id_at_localityName", Rfc5280.id_at_localityName),
   ("rfc5280.id_at_initials", Rfc5280.id_at_initials),
   ("rfc5280.ub_state_name", Rfc5280.ub_state_name),
   ("rfc5280.physical_delivery_organization_name", Rfc5280.physical_delivery_organization_name),
   ("rfc5280.id_at_surname", Rfc5280.id_at_surname),
   ("rfc5280.physical_delivery_office_number", Rfc5280.physical_delivery_office_number),
   ("rfc5280.id_qt_unotice", Rfc5280.id_qt_unotice),
   ("rfc5280.ub_common_name", Rfc5280.ub_common_name),
   ("rfc5280.id_pe", Rfc5280.id_pe),
   ("rfc5280.id_at_organizationName", Rfc5280.id_at_organizationName),
   ("rfc5280.post_office_box_address", Rfc5280.post_office_box_address),
   ("rfc5280.id_at_pseudonym", Rfc5280.id_at_pseudonym),
   ("rfc5280.id_domainComponent", Rfc5280.id_domainComponent),
   ("rfc5280.extension_OR_address_components", Rfc5280.extension_OR_address_components),
   ("rfc5280.ub_organizational_units", Rfc5280.ub_organizational_units),
   ("rfc5280.teletex_personal_name", Rfc5280.teletex_personal_name),
   ("rfc5280.ub_numeric_user_id_length", Rfc5280.ub_numeric_user_id_length),
   ("rfc5280.ub_common_name_length", Rfc5280.ub_common_name_length),
   ("rfc5280.extension_physical_delivery_address_components", Rfc5280.extension_physical_delivery_address_components),
   ("rfc5280.id_ad_timeStamping", Rfc5280.id_ad_timeStamping),
   ("rfc5280.teletex_domain_defined_attributes", Rfc5280.teletex_domain_defined_attributes),
   ("rfc5280.physical_delivery_country_name", Rfc5280.physical_delivery_country_name),
   ("rfc5280.ub_pds_name_length", Rfc5280.ub_pds_name_length),
   ("rfc5280.street_address", Rfc5280.street_address),
   ("rfc5280.local_postal_attributes", Rfc5280.local_postal_attributes),
   ("rfc5280.teletex_common_name", Rfc5280.teletex_common_name),
   ("rfc5280.id_at_name", Rfc5280.id_at_name),
   ("rfc5280.id_ce", Rfc5280.id_ce),
   ("rfc5280.id_ce_issuerAltName", Rfc5280.id_ce_issuerAltName),
   ("rfc5280.id_ce_certificatePolicies", Rfc5280.id_ce_certificatePolicies),
   ("rfc5280.id_kp_emailProtection", Rfc5280.id_kp_emailProtection),
   ("rfc5280.id_ce_cRLDistributionPoints", Rfc5280.id_ce_cRLDistributionPoints),
   ("rfc5280.holdInstruction", Rfc5280.holdInstruction),
   ("rfc5280.id_holdinstruction_callissuer", Rfc5280.id_holdinstruction_callissuer),
   ("rfc5280.id_ce_subjectDirectoryAttributes", Rfc5280.id_ce_subjectDirectoryAttributes),
   ("rfc5280.id_ce_issuingDistributionPoint", Rfc5280.id_ce_issuingDistributionPoint),
   ("rfc5280.id_kp_OCSPSigning", Rfc5280.id_kp_OCSPSigning),
   ("rfc5280.id_kp_timeStamping", Rfc5280.id_kp_timeStamping),
   ("rfc5280.id_ce_basicConstraints", Rfc5280.id_ce_basicConstraints),
   ("rfc5280.id_ce_authorityKeyIdentifier", Rfc5280.id_ce_authorityKeyIdentifier),
   ("rfc5280.id_kp_codeSigning", Rfc5280.id_kp_codeSigning),
   ("rfc5280.id_ce_certificateIssuer", Rfc5280.id_ce_certificateIssuer),
   ("rfc5280.anyPolicy", Rfc5280.anyPolicy),
   ("rfc5280.id_ce_nameConstraints", Rfc5280.id_ce_nameConstraints),
   ("rfc5280.id_kp_serverAuth", Rfc5280.id_kp_serverAuth),
   ("rfc5280.id_ce_freshestCRL", Rfc5280.id_ce_freshestCRL),
   ("rfc5280.id_ce_cRLReasons", Rfc5280.id_ce_cRLReasons),
   ("rfc5280.id_ce_extKeyUsage", Rfc5280.id_ce_extKeyUsage),
   ("rfc5280.id_ce_policyConstraints", Rfc5280.id_ce_policyConstraints),
   ("rfc5280.id_pe_authorityInfoAccess", Rfc5280.id_pe_authorityInfoAccess),
   ("rfc5280.id_holdinstruction_none", Rfc5280.id_holdinstruction_none),
   ("rfc5280.id_pe_subjectInfoAccess", Rfc5280.id_pe_subjectInfoAccess),
   ("rfc5280.id_ce_subjectAltName", Rfc5280.id_ce_subjectAltName),
   ("rfc5280.id_ce_deltaCRLIndicator", Rfc5280.id_ce_deltaCRLIndicator),
   ("rfc5280.id_ce_keyUsage", Rfc5280.id_ce_keyUsage),
   ("rfc5280.id_ce_holdInstructionCode", Rfc5280.id_ce_holdInstructionCode),
   ("rfc5280.id_ce_invalidityDate", Rfc5280.id_ce_invalidityDate),
   ("rfc5280.id_ce_policyMappings", Rfc5280.id_ce_policyMappings),
   ("rfc5280.anyExtendedKeyUsage", Rfc5280.anyExtendedKeyUsage),
   ("rfc5280.id_ce_privateKeyUsagePeriod", Rfc5280.id_ce_privateKeyUsagePeriod),
   ("rfc5280.id_ce_cRLNumber", Rfc5280.id_ce_cRLNumber),
   ("rfc5280.id_holdinstruction_reject", Rfc5280.id_holdinstruction_reject),
   ("rfc5280.id_kp_clientAuth", Rfc5280.id_kp_clientAuth),
   ("rfc5280.id_ce_subjectKeyIdentifier", Rfc5280.id_ce_subjectKeyIdentifier),
   ("rfc5280.id_ce_inhibitAnyPolicy", Rfc5280.id_ce_inhibitAnyPolicy)]

/-- pyasn1 instances rfc5280.py fills in by item assignment. -/
def protos : List (String × Py.Proto) :=
  []

/-- Every place of rfc5280.py that instantiates a class of the package: where, the class as it is
at that point, and the class as it is when the import has finished. -/
def snapshots : List Py.Snapshot :=
  [⟨"rfc5280.py:77", Rfc5280.Extension, Rfc5280.Extension⟩,
   ⟨"rfc5280.py:208", Rfc5280.TeletexDomainDefinedAttribute, Rfc5280.TeletexDomainDefinedAttribute⟩,
   ⟨"rfc5280.py:317", Rfc5280.AttributeType, Rfc5280.AttributeType⟩,
   ⟨"rfc5280.py:319", Rfc5280.AttributeValue, Rfc5280.AttributeValue⟩,
   ⟨"rfc5280.py:329", Rfc5280.AttributeTypeAndValue, Rfc5280.AttributeTypeAndValue⟩,
   ⟨"rfc5280.py:337", Rfc5280.RelativeDistinguishedName, Rfc5280.RelativeDistinguishedName⟩,
   ⟨"rfc5280.py:345", Rfc5280.RDNSequence, Rfc5280.RDNSequence⟩,
   ⟨"rfc5280.py:354", Rfc5280.Version, Rfc5280.Version⟩,
   ⟨"rfc5280.py:355", Rfc5280.AlgorithmIdentifier, Rfc5280.AlgorithmIdentifier⟩,
   ⟨"rfc5280.py:356", Rfc5280.Name, Rfc5280.Name⟩,
   ⟨"rfc5280.py:357", Rfc5280.Time, Rfc5280.Time⟩,
   ⟨"rfc5280.py:358", Rfc5280.Time, Rfc5280.Time⟩,
   ⟨"rfc5280.py:363", Rfc5280.CertificateSerialNumber, Rfc5280.CertificateSerialNumber⟩,
   ⟨"rfc5280.py:364", Rfc5280.Time, Rfc5280.Time⟩,
   ⟨"rfc5280.py:365", Rfc5280.Extensions, Rfc5280.Extensions⟩,
   ⟨"rfc5280.py:371", Rfc5280.Extensions, Rfc5280.Extensions⟩,
   ⟨"rfc5280.py:380", Rfc5280.TBSCertList, Rfc5280.TBSCertList⟩,
   ⟨"rfc5280.py:381", Rfc5280.AlgorithmIdentifier, Rfc5280.AlgorithmIdentifier⟩,
   ⟨"rfc5280.py:441", Rfc5280.Time, Rfc5280.Time⟩,
   ⟨"rfc5280.py:442", Rfc5280.Time, Rfc5280.Time⟩,
   ⟨"rfc5280.py:451", Rfc5280.AlgorithmIdentifier, Rfc5280.AlgorithmIdentifier⟩,
   ⟨"rfc5280.py:462", Rfc5280.Version, Rfc5280.Version⟩,
   ⟨"rfc5280.py:464", Rfc5280.CertificateSerialNumber, Rfc5280.CertificateSerialNumber⟩,
   ⟨"rfc5280.py:465", Rfc5280.AlgorithmIdentifier, Rfc5280.AlgorithmIdentifier⟩,
   ⟨"rfc5280.py:466", Rfc5280.Name, Rfc5280.Name⟩,
   ⟨"rfc5280.py:467", Rfc5280.Validity, Rfc5280.Validity⟩,
   ⟨"rfc5280.py:468", Rfc5280.Name, Rfc5280.Name⟩,
   ⟨"rfc5280.py:469", Rfc5280.SubjectPublicKeyInfo, Rfc5280.SubjectPublicKeyInfo⟩,
   ⟨"rfc5280.py:470", Rfc5280.UniqueIdentifier, Rfc5280.UniqueIdentifier⟩,
   ⟨"rfc5280.py:472", Rfc5280.UniqueIdentifier, Rfc5280.UniqueIdentifier⟩,
   ⟨"rfc5280.py:475", Rfc5280.Extensions, Rfc5280.Extensions⟩,
   ⟨"rfc5280.py:611", Rfc5280.PresentationAddress, Rfc5280.PresentationAddress⟩,
   ⟨"rfc5280.py:651", Rfc5280.ExtensionAttribute, Rfc5280.ExtensionAttribute⟩,
   ⟨"rfc5280.py:756", Rfc5280.AttributeType, Rfc5280.AttributeType⟩,
   ⟨"rfc5280.py:758", Rfc5280.AttributeValue, Rfc5280.AttributeValue⟩,
   ⟨"rfc5280.py:798", Rfc5280.BuiltInDomainDefinedAttribute, Rfc5280.BuiltInDomainDefinedAttribute⟩,
   ⟨"rfc5280.py:879", Rfc5280.OrganizationalUnitName, Rfc5280.OrganizationalUnitName⟩,
   ⟨"rfc5280.py:900", Rfc5280.CountryName, Rfc5280.CountryName⟩,
   ⟨"rfc5280.py:901", Rfc5280.AdministrationDomainName, Rfc5280.AdministrationDomainName⟩,
   ⟨"rfc5280.py:902", Rfc5280.NetworkAddress, Rfc5280.NetworkAddress⟩,
   ⟨"rfc5280.py:904", Rfc5280.TerminalIdentifier, Rfc5280.TerminalIdentifier⟩,
   ⟨"rfc5280.py:906", Rfc5280.PrivateDomainName, Rfc5280.PrivateDomainName⟩,
   ⟨"rfc5280.py:908", Rfc5280.OrganizationName, Rfc5280.OrganizationName⟩,
   ⟨"rfc5280.py:910", Rfc5280.NumericUserIdentifier, Rfc5280.NumericUserIdentifier⟩,
   ⟨"rfc5280.py:912", Rfc5280.PersonalName, Rfc5280.PersonalName⟩,
   ⟨"rfc5280.py:914", Rfc5280.OrganizationalUnitNames, Rfc5280.OrganizationalUnitNames⟩,
   ⟨"rfc5280.py:924", Rfc5280.BuiltInStandardAttributes, Rfc5280.BuiltInStandardAttributes⟩,
   ⟨"rfc5280.py:925", Rfc5280.BuiltInDomainDefinedAttributes, Rfc5280.BuiltInDomainDefinedAttributes⟩,
   ⟨"rfc5280.py:926", Rfc5280.ExtensionAttributes, Rfc5280.ExtensionAttributes⟩,
   ⟨"rfc5280.py:1019", Rfc5280.TBSCertificate, Rfc5280.TBSCertificate⟩,
   ⟨"rfc5280.py:1020", Rfc5280.AlgorithmIdentifier, Rfc5280.AlgorithmIdentifier⟩,
   ⟨"rfc5280.py:1038", Rfc5280.TeletexOrganizationalUnitName, Rfc5280.TeletexOrganizationalUnitName⟩,
   ⟨"rfc5280.py:1104", Rfc5280.DirectoryString, Rfc5280.DirectoryString⟩,
   ⟨"rfc5280.py:1106", Rfc5280.DirectoryString, Rfc5280.DirectoryString⟩,
   ⟨"rfc5280.py:1117", Rfc5280.AnotherName, Rfc5280.AnotherName⟩,
   ⟨"rfc5280.py:1123", Rfc5280.ORAddress, Rfc5280.ORAddress⟩,
   ⟨"rfc5280.py:1125", Rfc5280.Name, Rfc5280.Name⟩,
   ⟨"rfc5280.py:1127", Rfc5280.EDIPartyName, Rfc5280.EDIPartyName⟩,
   ⟨"rfc5280.py:1149", Rfc5280.GeneralName, Rfc5280.GeneralName⟩,
   ⟨"rfc5280.py:1150", Rfc5280.BaseDistance, Rfc5280.BaseDistance⟩,
   ⟨"rfc5280.py:1152", Rfc5280.BaseDistance, Rfc5280.BaseDistance⟩,
   ⟨"rfc5280.py:1161", Rfc5280.GeneralName, Rfc5280.GeneralName⟩,
   ⟨"rfc5280.py:1171", Rfc5280.GeneralNames, Rfc5280.GeneralNames⟩,
   ⟨"rfc5280.py:1172", Rfc5280.RelativeDistinguishedName, Rfc5280.RelativeDistinguishedName⟩,
   ⟨"rfc5280.py:1199", Rfc5280.DistributionPointName, Rfc5280.DistributionPointName⟩,
   ⟨"rfc5280.py:1205", Rfc5280.ReasonFlags, Rfc5280.ReasonFlags⟩,
   ⟨"rfc5280.py:1224", Rfc5280.GeneralName, Rfc5280.GeneralName⟩,
   ⟨"rfc5280.py:1248", Rfc5280.DistributionPointName, Rfc5280.DistributionPointName⟩,
   ⟨"rfc5280.py:1250", Rfc5280.ReasonFlags, Rfc5280.ReasonFlags⟩,
   ⟨"rfc5280.py:1252", Rfc5280.GeneralNames, Rfc5280.GeneralNames⟩,
   ⟨"rfc5280.py:1261", Rfc5280.DistributionPoint, Rfc5280.DistributionPoint⟩,
   ⟨"rfc5280.py:1269", Rfc5280.GeneralSubtree, Rfc5280.GeneralSubtree⟩,
   ⟨"rfc5280.py:1278", Rfc5280.GeneralSubtrees, Rfc5280.GeneralSubtrees⟩,
   ⟨"rfc5280.py:1280", Rfc5280.GeneralSubtrees, Rfc5280.GeneralSubtrees⟩,
   ⟨"rfc5280.py:1289", Rfc5280.Attribute, Rfc5280.Attribute⟩,
   ⟨"rfc5280.py:1315", Rfc5280.DisplayText, Rfc5280.DisplayText⟩,
   ⟨"rfc5280.py:1325", Rfc5280.NoticeReference, Rfc5280.NoticeReference⟩,
   ⟨"rfc5280.py:1326", Rfc5280.DisplayText, Rfc5280.DisplayText⟩,
   ⟨"rfc5280.py:1341", Rfc5280.PolicyQualifierId, Rfc5280.PolicyQualifierId⟩,
   ⟨"rfc5280.py:1358", Rfc5280.CertPolicyId, Rfc5280.CertPolicyId⟩,
   ⟨"rfc5280.py:1359", Rfc5280.PolicyQualifierInfo, Rfc5280.PolicyQualifierInfo⟩,
   ⟨"rfc5280.py:1367", Rfc5280.PolicyInformation, Rfc5280.PolicyInformation⟩,
   ⟨"rfc5280.py:1401", Rfc5280.CertPolicyId, Rfc5280.CertPolicyId⟩,
   ⟨"rfc5280.py:1402", Rfc5280.CertPolicyId, Rfc5280.CertPolicyId⟩,
   ⟨"rfc5280.py:1447", Rfc5280.KeyIdentifier, Rfc5280.KeyIdentifier⟩,
   ⟨"rfc5280.py:1449", Rfc5280.GeneralNames, Rfc5280.GeneralNames⟩,
   ⟨"rfc5280.py:1451", Rfc5280.CertificateSerialNumber, Rfc5280.CertificateSerialNumber⟩,
   ⟨"rfc5280.py:1469", Rfc5280.AccessDescription, Rfc5280.AccessDescription⟩,
   ⟨"rfc5280.py:1497", Rfc5280.KeyPurposeId, Rfc5280.KeyPurposeId⟩,
   ⟨"rfc5280.py:1516", Rfc5280.AccessDescription, Rfc5280.AccessDescription⟩,
   ⟨"rfc5280.py:1564", Rfc5280.SkipCerts, Rfc5280.SkipCerts⟩,
   ⟨"rfc5280.py:1566", Rfc5280.SkipCerts, Rfc5280.SkipCerts⟩,
   ⟨"rfc5280.py:1578", Rfc5280.CommonName, Rfc5280.CommonName⟩,
   ⟨"rfc5280.py:1579", Rfc5280.TeletexCommonName, Rfc5280.TeletexCommonName⟩,
   ⟨"rfc5280.py:1580", Rfc5280.TeletexOrganizationName, Rfc5280.TeletexOrganizationName⟩,
   ⟨"rfc5280.py:1581", Rfc5280.TeletexPersonalName, Rfc5280.TeletexPersonalName⟩,
   ⟨"rfc5280.py:1582", Rfc5280.TeletexOrganizationalUnitNames, Rfc5280.TeletexOrganizationalUnitNames⟩,
   ⟨"rfc5280.py:1583", Rfc5280.PDSName, Rfc5280.PDSName⟩,
   ⟨"rfc5280.py:1584", Rfc5280.PhysicalDeliveryCountryName, Rfc5280.PhysicalDeliveryCountryName⟩,
   ⟨"rfc5280.py:1585", Rfc5280.PostalCode, Rfc5280.PostalCode⟩,
   ⟨"rfc5280.py:1586", Rfc5280.PhysicalDeliveryOfficeName, Rfc5280.PhysicalDeliveryOfficeName⟩,
   ⟨"rfc5280.py:1587", Rfc5280.PhysicalDeliveryOfficeNumber, Rfc5280.PhysicalDeliveryOfficeNumber⟩,
   ⟨"rfc5280.py:1588", Rfc5280.ExtensionORAddressComponents, Rfc5280.ExtensionORAddressComponents⟩,
   ⟨"rfc5280.py:1589", Rfc5280.PhysicalDeliveryPersonalName, Rfc5280.PhysicalDeliveryPersonalName⟩,
   ⟨"rfc5280.py:1590", Rfc5280.PhysicalDeliveryOrganizationName, Rfc5280.PhysicalDeliveryOrganizationName⟩,
   ⟨"rfc5280.py:1591", Rfc5280.ExtensionPhysicalDeliveryAddressComponents, Rfc5280.ExtensionPhysicalDeliveryAddressComponents⟩,
   ⟨"rfc5280.py:1592", Rfc5280.UnformattedPostalAddress, Rfc5280.UnformattedPostalAddress⟩,
   ⟨"rfc5280.py:1593", Rfc5280.StreetAddress, Rfc5280.StreetAddress⟩,
   ⟨"rfc5280.py:1594", Rfc5280.PostOfficeBoxAddress, Rfc5280.PostOfficeBoxAddress⟩,
   ⟨"rfc5280.py:1595", Rfc5280.PosteRestanteAddress, Rfc5280.PosteRestanteAddress⟩,
   ⟨"rfc5280.py:1596", Rfc5280.UniquePostalName, Rfc5280.UniquePostalName⟩,
   ⟨"rfc5280.py:1597", Rfc5280.LocalPostalAttributes, Rfc5280.LocalPostalAttributes⟩,
   ⟨"rfc5280.py:1598", Rfc5280.ExtendedNetworkAddress, Rfc5280.ExtendedNetworkAddress⟩,
   ⟨"rfc5280.py:1599", Rfc5280.TerminalType, Rfc5280.TerminalType⟩,
   ⟨"rfc5280.py:1600", Rfc5280.TeletexDomainDefinedAttributes, Rfc5280.TeletexDomainDefinedAttributes⟩,
   ⟨"rfc5280.py:1609", Rfc5280.X520name, Rfc5280.X520name⟩,
   ⟨"rfc5280.py:1610", Rfc5280.X520name, Rfc5280.X520name⟩,
   ⟨"rfc5280.py:1611", Rfc5280.X520name, Rfc5280.X520name⟩,
   ⟨"rfc5280.py:1612", Rfc5280.X520name, Rfc5280.X520name⟩,
   ⟨"rfc5280.py:1613", Rfc5280.X520name, Rfc5280.X520name⟩,
   ⟨"rfc5280.py:1614", Rfc5280.X520CommonName, Rfc5280.X520CommonName⟩,
   ⟨"rfc5280.py:1615", Rfc5280.X520LocalityName, Rfc5280.X520LocalityName⟩,
   ⟨"rfc5280.py:1616", Rfc5280.X520StateOrProvinceName, Rfc5280.X520StateOrProvinceName⟩,
   ⟨"rfc5280.py:1617", Rfc5280.X520OrganizationName, Rfc5280.X520OrganizationName⟩,
   ⟨"rfc5280.py:1618", Rfc5280.X520OrganizationalUnitName, Rfc5280.X520OrganizationalUnitName⟩,
   ⟨"rfc5280.py:1619", Rfc5280.X520Title, Rfc5280.X520Title⟩,
   ⟨"rfc5280.py:1620", Rfc5280.X520dnQualifier, Rfc5280.X520dnQualifier⟩,
   ⟨"rfc5280.py:1621", Rfc5280.X520countryName, Rfc5280.X520countryName⟩,
   ⟨"rfc5280.py:1622", Rfc5280.X520SerialNumber, Rfc5280.X520SerialNumber⟩,
   ⟨"rfc5280.py:1623", Rfc5280.X520Pseudonym, Rfc5280.X520Pseudonym⟩,
   ⟨"rfc5280.py:1624", Rfc5280.DomainComponent, Rfc5280.DomainComponent⟩,
   ⟨"rfc5280.py:1625", Rfc5280.EmailAddress, Rfc5280.EmailAddress⟩,
   ⟨"rfc5280.py:1634", Rfc5280.AuthorityKeyIdentifier, Rfc5280.AuthorityKeyIdentifier⟩,
   ⟨"rfc5280.py:1635", Rfc5280.SubjectKeyIdentifier, Rfc5280.SubjectKeyIdentifier⟩,
   ⟨"rfc5280.py:1636", Rfc5280.KeyUsage, Rfc5280.KeyUsage⟩,
   ⟨"rfc5280.py:1637", Rfc5280.PrivateKeyUsagePeriod, Rfc5280.PrivateKeyUsagePeriod⟩,
   ⟨"rfc5280.py:1638", Rfc5280.CertificatePolicies, Rfc5280.CertificatePolicies⟩,
   ⟨"rfc5280.py:1639", Rfc5280.PolicyMappings, Rfc5280.PolicyMappings⟩,
   ⟨"rfc5280.py:1640", Rfc5280.SubjectAltName, Rfc5280.SubjectAltName⟩,
   ⟨"rfc5280.py:1641", Rfc5280.IssuerAltName, Rfc5280.IssuerAltName⟩,
   ⟨"rfc5280.py:1642", Rfc5280.SubjectDirectoryAttributes, Rfc5280.SubjectDirectoryAttributes⟩,
   ⟨"rfc5280.py:1643", Rfc5280.BasicConstraints, Rfc5280.BasicConstraints⟩,
   ⟨"rfc5280.py:1644", Rfc5280.NameConstraints, Rfc5280.NameConstraints⟩,
   ⟨"rfc5280.py:1645", Rfc5280.PolicyConstraints, Rfc5280.PolicyConstraints⟩,
   ⟨"rfc5280.py:1646", Rfc5280.ExtKeyUsageSyntax, Rfc5280.ExtKeyUsageSyntax⟩,
   ⟨"rfc5280.py:1647", Rfc5280.CRLDistributionPoints, Rfc5280.CRLDistributionPoints⟩,
   ⟨"rfc5280.py:1648", Rfc5280.AuthorityInfoAccessSyntax, Rfc5280.AuthorityInfoAccessSyntax⟩,
   ⟨"rfc5280.py:1650", Rfc5280.BaseCRLNumber, Rfc5280.BaseCRLNumber⟩,
   ⟨"rfc5280.py:1651", Rfc5280.IssuingDistributionPoint, Rfc5280.IssuingDistributionPoint⟩,
   ⟨"rfc5280.py:1652", Rfc5280.CRLReason, Rfc5280.CRLReason⟩,
   ⟨"rfc5280.py:1655", Rfc5280.GeneralNames, Rfc5280.GeneralNames⟩]

/-- Functions rfc5280.py defines. -/
def builders : List (String × (List Py.OidArg → Py.Obj)) :=
  [("rfc5280._buildOid", Rfc5280._buildOid)]

def asModule : Py.Module :=
  { id := (Py.mod 15 "rfc5280"), imports := imports, effects := effects, classes := classes, objects := objects, protos := protos, snapshots := snapshots, builders := builders }

end Rfc5280
end Verif
