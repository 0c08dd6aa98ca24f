import Verif.Py.Obj

/-! Transcription of /repo/pyasn1_modules/rfc2459.py (generated by tools/gen.py). -/

namespace Verif
namespace Rfc2459

/-- rfc2459.py:28 -/
def MAX : Py.Bound :=
  .inf

/-- rfc2459.py:35 -/
def ub_name : Py.Obj :=
  (Py.univ.Integer.call.callInt 32768)

/-- rfc2459.py:36 -/
def ub_common_name : Py.Obj :=
  (Py.univ.Integer.call.callInt 64)

/-- rfc2459.py:37 -/
def ub_locality_name : Py.Obj :=
  (Py.univ.Integer.call.callInt 128)

/-- rfc2459.py:38 -/
def ub_state_name : Py.Obj :=
  (Py.univ.Integer.call.callInt 128)

/-- rfc2459.py:39 -/
def ub_organization_name : Py.Obj :=
  (Py.univ.Integer.call.callInt 64)

/-- rfc2459.py:40 -/
def ub_organizational_unit_name : Py.Obj :=
  (Py.univ.Integer.call.callInt 64)

/-- rfc2459.py:41 -/
def ub_title : Py.Obj :=
  (Py.univ.Integer.call.callInt 64)

/-- rfc2459.py:42 -/
def ub_match : Py.Obj :=
  (Py.univ.Integer.call.callInt 128)

/-- rfc2459.py:43 -/
def ub_emailaddress_length : Py.Obj :=
  (Py.univ.Integer.call.callInt 128)

/-- rfc2459.py:44 -/
def ub_common_name_length : Py.Obj :=
  (Py.univ.Integer.call.callInt 64)

/-- rfc2459.py:45 -/
def ub_country_name_alpha_length : Py.Obj :=
  (Py.univ.Integer.call.callInt 2)

/-- rfc2459.py:46 -/
def ub_country_name_numeric_length : Py.Obj :=
  (Py.univ.Integer.call.callInt 3)

/-- rfc2459.py:47 -/
def ub_domain_defined_attributes : Py.Obj :=
  (Py.univ.Integer.call.callInt 4)

/-- rfc2459.py:48 -/
def ub_domain_defined_attribute_type_length : Py.Obj :=
  (Py.univ.Integer.call.callInt 8)

/-- rfc2459.py:49 -/
def ub_domain_defined_attribute_value_length : Py.Obj :=
  (Py.univ.Integer.call.callInt 128)

/-- rfc2459.py:50 -/
def ub_domain_name_length : Py.Obj :=
  (Py.univ.Integer.call.callInt 16)

/-- rfc2459.py:51 -/
def ub_extension_attributes : Py.Obj :=
  (Py.univ.Integer.call.callInt 256)

/-- rfc2459.py:52 -/
def ub_e163_4_number_length : Py.Obj :=
  (Py.univ.Integer.call.callInt 15)

/-- rfc2459.py:53 -/
def ub_e163_4_sub_address_length : Py.Obj :=
  (Py.univ.Integer.call.callInt 40)

/-- rfc2459.py:54 -/
def ub_generation_qualifier_length : Py.Obj :=
  (Py.univ.Integer.call.callInt 3)

/-- rfc2459.py:55 -/
def ub_given_name_length : Py.Obj :=
  (Py.univ.Integer.call.callInt 16)

/-- rfc2459.py:56 -/
def ub_initials_length : Py.Obj :=
  (Py.univ.Integer.call.callInt 5)

/-- rfc2459.py:57 -/
def ub_integer_options : Py.Obj :=
  (Py.univ.Integer.call.callInt 256)

/-- rfc2459.py:58 -/
def ub_numeric_user_id_length : Py.Obj :=
  (Py.univ.Integer.call.callInt 32)

/-- rfc2459.py:59 -/
def ub_organization_name_length : Py.Obj :=
  (Py.univ.Integer.call.callInt 64)

/-- rfc2459.py:60 -/
def ub_organizational_unit_name_length : Py.Obj :=
  (Py.univ.Integer.call.callInt 32)

/-- rfc2459.py:61 -/
def ub_organizational_units : Py.Obj :=
  (Py.univ.Integer.call.callInt 4)

/-- rfc2459.py:62 -/
def ub_pds_name_length : Py.Obj :=
  (Py.univ.Integer.call.callInt 16)

/-- rfc2459.py:63 -/
def ub_pds_parameter_length : Py.Obj :=
  (Py.univ.Integer.call.callInt 30)

/-- rfc2459.py:64 -/
def ub_pds_physical_address_lines : Py.Obj :=
  (Py.univ.Integer.call.callInt 6)

/-- rfc2459.py:65 -/
def ub_postal_code_length : Py.Obj :=
  (Py.univ.Integer.call.callInt 16)

/-- rfc2459.py:66 -/
def ub_surname_length : Py.Obj :=
  (Py.univ.Integer.call.callInt 40)

/-- rfc2459.py:67 -/
def ub_terminal_id_length : Py.Obj :=
  (Py.univ.Integer.call.callInt 24)

/-- rfc2459.py:68 -/
def ub_unformatted_address_length : Py.Obj :=
  (Py.univ.Integer.call.callInt 180)

/-- rfc2459.py:69 -/
def ub_x121_address_length : Py.Obj :=
  (Py.univ.Integer.call.callInt 16)

/-- rfc2459.py:72-73 `class UniversalString(char.UniversalString)` -/
def UniversalString : Py.Obj :=
  Py.char.UniversalString

/-- rfc2459.py:76-77 `class BMPString(char.BMPString)` -/
def BMPString : Py.Obj :=
  Py.char.BMPString

/-- rfc2459.py:80-81 `class UTF8String(char.UTF8String)` -/
def UTF8String : Py.Obj :=
  Py.char.UTF8String

/-- rfc2459.py:84 -/
def id_pkix : Py.Obj :=
  (Py.univ.ObjectIdentifier.call.callArcs [1, 3, 6, 1, 5, 5, 7])

/-- rfc2459.py:85 -/
def id_pe : Py.Obj :=
  (Py.univ.ObjectIdentifier.call.callArcs [1, 3, 6, 1, 5, 5, 7, 1])

/-- rfc2459.py:86 -/
def id_qt : Py.Obj :=
  (Py.univ.ObjectIdentifier.call.callArcs [1, 3, 6, 1, 5, 5, 7, 2])

/-- rfc2459.py:87 -/
def id_kp : Py.Obj :=
  (Py.univ.ObjectIdentifier.call.callArcs [1, 3, 6, 1, 5, 5, 7, 3])

/-- rfc2459.py:88 -/
def id_ad : Py.Obj :=
  (Py.univ.ObjectIdentifier.call.callArcs [1, 3, 6, 1, 5, 5, 7, 48])

/-- rfc2459.py:90 -/
def id_qt_cps : Py.Obj :=
  (Py.univ.ObjectIdentifier.call.callArcs [1, 3, 6, 1, 5, 5, 7, 2, 1])

/-- rfc2459.py:91 -/
def id_qt_unotice : Py.Obj :=
  (Py.univ.ObjectIdentifier.call.callArcs [1, 3, 6, 1, 5, 5, 7, 2, 2])

/-- rfc2459.py:93 -/
def id_ad_ocsp : Py.Obj :=
  (Py.univ.ObjectIdentifier.call.callArcs [1, 3, 6, 1, 5, 5, 7, 48, 1])

/-- rfc2459.py:94 -/
def id_ad_caIssuers : Py.Obj :=
  (Py.univ.ObjectIdentifier.call.callArcs [1, 3, 6, 1, 5, 5, 7, 48, 2])

/-- rfc2459.py:99 -/
def id_at : Py.Obj :=
  (Py.univ.ObjectIdentifier.call.callArcs [2, 5, 4])

/-- rfc2459.py:100 -/
def id_at_name : Py.Obj :=
  (Py.univ.ObjectIdentifier.call.callArcs [2, 5, 4, 41])

/-- rfc2459.py:102 -/
def id_at_sutname : Py.Obj :=
  (Py.univ.ObjectIdentifier.call.callArcs [2, 5, 4, 4])

/-- rfc2459.py:102 -/
def id_at_surname : Py.Obj :=
  (Py.univ.ObjectIdentifier.call.callArcs [2, 5, 4, 4])

/-- rfc2459.py:103 -/
def id_at_givenName : Py.Obj :=
  (Py.univ.ObjectIdentifier.call.callArcs [2, 5, 4, 42])

/-- rfc2459.py:104 -/
def id_at_initials : Py.Obj :=
  (Py.univ.ObjectIdentifier.call.callArcs [2, 5, 4, 43])

/-- rfc2459.py:105 -/
def id_at_generationQualifier : Py.Obj :=
  (Py.univ.ObjectIdentifier.call.callArcs [2, 5, 4, 44])

/-- rfc2459.py:108-120 `class X520name(univ.Choice)` -/
def X520name : Py.Obj :=
  Py.univ.Choice.setComponentType (Py.NamedTypes [
    Py.NamedType "teletexString" (Py.char.TeletexString.call.addSubtypeSpec (Py.ValueSizeConstraint (.fin 1) Rfc2459.ub_name.bound)),
    Py.NamedType "printableString" (Py.char.PrintableString.call.addSubtypeSpec (Py.ValueSizeConstraint (.fin 1) Rfc2459.ub_name.bound)),
    Py.NamedType "universalString" (Py.char.UniversalString.call.addSubtypeSpec (Py.ValueSizeConstraint (.fin 1) Rfc2459.ub_name.bound)),
    Py.NamedType "utf8String" (Py.char.UTF8String.call.addSubtypeSpec (Py.ValueSizeConstraint (.fin 1) Rfc2459.ub_name.bound)),
    Py.NamedType "bmpString" (Py.char.BMPString.call.addSubtypeSpec (Py.ValueSizeConstraint (.fin 1) Rfc2459.ub_name.bound))])

/-- rfc2459.py:123 -/
def id_at_commonName : Py.Obj :=
  (Py.univ.ObjectIdentifier.call.callArcs [2, 5, 4, 3])

/-- rfc2459.py:126-138 `class X520CommonName(univ.Choice)` -/
def X520CommonName : Py.Obj :=
  Py.univ.Choice.setComponentType (Py.NamedTypes [
    Py.NamedType "teletexString" (Py.char.TeletexString.call.addSubtypeSpec (Py.ValueSizeConstraint (.fin 1) Rfc2459.ub_common_name.bound)),
    Py.NamedType "printableString" (Py.char.PrintableString.call.addSubtypeSpec (Py.ValueSizeConstraint (.fin 1) Rfc2459.ub_common_name.bound)),
    Py.NamedType "universalString" (Py.char.UniversalString.call.addSubtypeSpec (Py.ValueSizeConstraint (.fin 1) Rfc2459.ub_common_name.bound)),
    Py.NamedType "utf8String" (Py.char.UTF8String.call.addSubtypeSpec (Py.ValueSizeConstraint (.fin 1) Rfc2459.ub_common_name.bound)),
    Py.NamedType "bmpString" (Py.char.BMPString.call.addSubtypeSpec (Py.ValueSizeConstraint (.fin 1) Rfc2459.ub_common_name.bound))])

/-- rfc2459.py:141 -/
def id_at_localityName : Py.Obj :=
  (Py.univ.ObjectIdentifier.call.callArcs [2, 5, 4, 7])

/-- rfc2459.py:144-156 `class X520LocalityName(univ.Choice)` -/
def X520LocalityName : Py.Obj :=
  Py.univ.Choice.setComponentType (Py.NamedTypes [
    Py.NamedType "teletexString" (Py.char.TeletexString.call.addSubtypeSpec (Py.ValueSizeConstraint (.fin 1) Rfc2459.ub_locality_name.bound)),
    Py.NamedType "printableString" (Py.char.PrintableString.call.addSubtypeSpec (Py.ValueSizeConstraint (.fin 1) Rfc2459.ub_locality_name.bound)),
    Py.NamedType "universalString" (Py.char.UniversalString.call.addSubtypeSpec (Py.ValueSizeConstraint (.fin 1) Rfc2459.ub_locality_name.bound)),
    Py.NamedType "utf8String" (Py.char.UTF8String.call.addSubtypeSpec (Py.ValueSizeConstraint (.fin 1) Rfc2459.ub_locality_name.bound)),
    Py.NamedType "bmpString" (Py.char.BMPString.call.addSubtypeSpec (Py.ValueSizeConstraint (.fin 1) Rfc2459.ub_locality_name.bound))])

/-- rfc2459.py:159 -/
def id_at_stateOrProvinceName : Py.Obj :=
  (Py.univ.ObjectIdentifier.call.callArcs [2, 5, 4, 8])

/-- rfc2459.py:162-174 `class X520StateOrProvinceName(univ.Choice)` -/
def X520StateOrProvinceName : Py.Obj :=
  Py.univ.Choice.setComponentType (Py.NamedTypes [
    Py.NamedType "teletexString" (Py.char.TeletexString.call.addSubtypeSpec (Py.ValueSizeConstraint (.fin 1) Rfc2459.ub_state_name.bound)),
    Py.NamedType "printableString" (Py.char.PrintableString.call.addSubtypeSpec (Py.ValueSizeConstraint (.fin 1) Rfc2459.ub_state_name.bound)),
    Py.NamedType "universalString" (Py.char.UniversalString.call.addSubtypeSpec (Py.ValueSizeConstraint (.fin 1) Rfc2459.ub_state_name.bound)),
    Py.NamedType "utf8String" (Py.char.UTF8String.call.addSubtypeSpec (Py.ValueSizeConstraint (.fin 1) Rfc2459.ub_state_name.bound)),
    Py.NamedType "bmpString" (Py.char.BMPString.call.addSubtypeSpec (Py.ValueSizeConstraint (.fin 1) Rfc2459.ub_state_name.bound))])

/-- rfc2459.py:177 -/
def id_at_organizationName : Py.Obj :=
  (Py.univ.ObjectIdentifier.call.callArcs [2, 5, 4, 10])

/-- rfc2459.py:180-192 `class X520OrganizationName(univ.Choice)` -/
def X520OrganizationName : Py.Obj :=
  Py.univ.Choice.setComponentType (Py.NamedTypes [
    Py.NamedType "teletexString" (Py.char.TeletexString.call.addSubtypeSpec (Py.ValueSizeConstraint (.fin 1) Rfc2459.ub_organization_name.bound)),
    Py.NamedType "printableString" (Py.char.PrintableString.call.addSubtypeSpec (Py.ValueSizeConstraint (.fin 1) Rfc2459.ub_organization_name.bound)),
    Py.NamedType "universalString" (Py.char.UniversalString.call.addSubtypeSpec (Py.ValueSizeConstraint (.fin 1) Rfc2459.ub_organization_name.bound)),
    Py.NamedType "utf8String" (Py.char.UTF8String.call.addSubtypeSpec (Py.ValueSizeConstraint (.fin 1) Rfc2459.ub_organization_name.bound)),
    Py.NamedType "bmpString" (Py.char.BMPString.call.addSubtypeSpec (Py.ValueSizeConstraint (.fin 1) Rfc2459.ub_organization_name.bound))])

/-- rfc2459.py:195 -/
def id_at_organizationalUnitName : Py.Obj :=
  (Py.univ.ObjectIdentifier.call.callArcs [2, 5, 4, 11])

/-- rfc2459.py:198-210 `class X520OrganizationalUnitName(univ.Choice)` -/
def X520OrganizationalUnitName : Py.Obj :=
  Py.univ.Choice.setComponentType (Py.NamedTypes [
    Py.NamedType "teletexString" (Py.char.TeletexString.call.addSubtypeSpec (Py.ValueSizeConstraint (.fin 1) Rfc2459.ub_organizational_unit_name.bound)),
    Py.NamedType "printableString" (Py.char.PrintableString.call.addSubtypeSpec (Py.ValueSizeConstraint (.fin 1) Rfc2459.ub_organizational_unit_name.bound)),
    Py.NamedType "universalString" (Py.char.UniversalString.call.addSubtypeSpec (Py.ValueSizeConstraint (.fin 1) Rfc2459.ub_organizational_unit_name.bound)),
    Py.NamedType "utf8String" (Py.char.UTF8String.call.addSubtypeSpec (Py.ValueSizeConstraint (.fin 1) Rfc2459.ub_organizational_unit_name.bound)),
    Py.NamedType "bmpString" (Py.char.BMPString.call.addSubtypeSpec (Py.ValueSizeConstraint (.fin 1) Rfc2459.ub_organizational_unit_name.bound))])

/-- rfc2459.py:213 -/
def id_at_title : Py.Obj :=
  (Py.univ.ObjectIdentifier.call.callArcs [2, 5, 4, 12])

/-- rfc2459.py:216-228 `class X520Title(univ.Choice)` -/
def X520Title : Py.Obj :=
  Py.univ.Choice.setComponentType (Py.NamedTypes [
    Py.NamedType "teletexString" (Py.char.TeletexString.call.addSubtypeSpec (Py.ValueSizeConstraint (.fin 1) Rfc2459.ub_title.bound)),
    Py.NamedType "printableString" (Py.char.PrintableString.call.addSubtypeSpec (Py.ValueSizeConstraint (.fin 1) Rfc2459.ub_title.bound)),
    Py.NamedType "universalString" (Py.char.UniversalString.call.addSubtypeSpec (Py.ValueSizeConstraint (.fin 1) Rfc2459.ub_title.bound)),
    Py.NamedType "utf8String" (Py.char.UTF8String.call.addSubtypeSpec (Py.ValueSizeConstraint (.fin 1) Rfc2459.ub_title.bound)),
    Py.NamedType "bmpString" (Py.char.BMPString.call.addSubtypeSpec (Py.ValueSizeConstraint (.fin 1) Rfc2459.ub_title.bound))])

/-- rfc2459.py:231 -/
def id_at_dnQualifier : Py.Obj :=
  (Py.univ.ObjectIdentifier.call.callArcs [2, 5, 4, 46])

/-- rfc2459.py:234-235 `class X520dnQualifier(char.PrintableString)` -/
def X520dnQualifier : Py.Obj :=
  Py.char.PrintableString

/-- rfc2459.py:238 -/
def id_at_countryName : Py.Obj :=
  (Py.univ.ObjectIdentifier.call.callArcs [2, 5, 4, 6])

/-- rfc2459.py:241-242 `class X520countryName(char.PrintableString)` -/
def X520countryName : Py.Obj :=
  Py.char.PrintableString.setSubtypeSpec (Py.char.PrintableString.subtypeSpec.add (Py.ValueSizeConstraint (.fin 2) (.fin 2)))

/-- rfc2459.py:245 -/
def pkcs_9 : Py.Obj :=
  (Py.univ.ObjectIdentifier.call.callArcs [1, 2, 840, 113549, 1, 9])

/-- rfc2459.py:247 -/
def emailAddress : Py.Obj :=
  (Py.univ.ObjectIdentifier.call.callArcs [1, 2, 840, 113549, 1, 9, 1])

/-- rfc2459.py:250-251 `class Pkcs9email(char.IA5String)` -/
def Pkcs9email : Py.Obj :=
  Py.char.IA5String.setSubtypeSpec (Py.char.IA5String.subtypeSpec.add (Py.ValueSizeConstraint (.fin 1) Rfc2459.ub_emailaddress_length.bound))

/-- rfc2459.py:256-265 `class DSAPrivateKey(univ.Sequence)` -/
def DSAPrivateKey : Py.Obj :=
  Py.univ.Sequence.setComponentType (Py.NamedTypes [
    Py.NamedType "version" (Py.univ.Integer.call.setNamedValues (Py.NamedValues [("v1", 0)])),
    Py.NamedType "p" Py.univ.Integer.call,
    Py.NamedType "q" Py.univ.Integer.call,
    Py.NamedType "g" Py.univ.Integer.call,
    Py.NamedType "public" Py.univ.Integer.call,
    Py.NamedType "private" Py.univ.Integer.call])

/-- rfc2459.py:271-284 `class DirectoryString(univ.Choice)` -/
def DirectoryString : Py.Obj :=
  Py.univ.Choice.setComponentType (Py.NamedTypes [
    Py.NamedType "teletexString" (Py.char.TeletexString.call.addSubtypeSpec (Py.ValueSizeConstraint (.fin 1) Rfc2459.MAX)),
    Py.NamedType "printableString" (Py.char.PrintableString.call.addSubtypeSpec (Py.ValueSizeConstraint (.fin 1) Rfc2459.MAX)),
    Py.NamedType "universalString" (Py.char.UniversalString.call.addSubtypeSpec (Py.ValueSizeConstraint (.fin 1) Rfc2459.MAX)),
    Py.NamedType "utf8String" (Py.char.UTF8String.call.addSubtypeSpec (Py.ValueSizeConstraint (.fin 1) Rfc2459.MAX)),
    Py.NamedType "bmpString" (Py.char.BMPString.call.addSubtypeSpec (Py.ValueSizeConstraint (.fin 1) Rfc2459.MAX)),
    Py.NamedType "ia5String" (Py.char.IA5String.call.addSubtypeSpec (Py.ValueSizeConstraint (.fin 1) Rfc2459.MAX))])

/-- rfc2459.py:289-293 `class AlgorithmIdentifier(univ.Sequence)` -/
def AlgorithmIdentifier : Py.Obj :=
  Py.univ.Sequence.setComponentType (Py.NamedTypes [
    Py.NamedType "algorithm" Py.univ.ObjectIdentifier.call,
    Py.OptionalNamedType "parameters" Py.univ.Any.call])

/-- rfc2459.py:299 -/
def pkcs_1 : Py.Obj :=
  (Py.univ.ObjectIdentifier.call.callArcs [1, 2, 840, 113549, 1, 1])

/-- rfc2459.py:300 -/
def rsaEncryption : Py.Obj :=
  (Py.univ.ObjectIdentifier.call.callArcs [1, 2, 840, 113549, 1, 1, 1])

/-- rfc2459.py:301 -/
def md2WithRSAEncryption : Py.Obj :=
  (Py.univ.ObjectIdentifier.call.callArcs [1, 2, 840, 113549, 1, 1, 2])

/-- rfc2459.py:302 -/
def md5WithRSAEncryption : Py.Obj :=
  (Py.univ.ObjectIdentifier.call.callArcs [1, 2, 840, 113549, 1, 1, 4])

/-- rfc2459.py:303 -/
def sha1WithRSAEncryption : Py.Obj :=
  (Py.univ.ObjectIdentifier.call.callArcs [1, 2, 840, 113549, 1, 1, 5])

/-- rfc2459.py:304 -/
def id_dsa_with_sha1 : Py.Obj :=
  (Py.univ.ObjectIdentifier.call.callArcs [1, 2, 840, 10040, 4, 3])

/-- rfc2459.py:307-311 `class Dss_Sig_Value(univ.Sequence)` -/
def Dss_Sig_Value : Py.Obj :=
  Py.univ.Sequence.setComponentType (Py.NamedTypes [
    Py.NamedType "r" Py.univ.Integer.call,
    Py.NamedType "s" Py.univ.Integer.call])

/-- rfc2459.py:314 -/
def dhpublicnumber : Py.Obj :=
  (Py.univ.ObjectIdentifier.call.callArcs [1, 2, 840, 10046, 2, 1])

/-- rfc2459.py:317-321 `class ValidationParms(univ.Sequence)` -/
def ValidationParms : Py.Obj :=
  Py.univ.Sequence.setComponentType (Py.NamedTypes [
    Py.NamedType "seed" Py.univ.BitString.call,
    Py.NamedType "pgenCounter" Py.univ.Integer.call])

/-- rfc2459.py:324-331 `class DomainParameters(univ.Sequence)` -/
def DomainParameters : Py.Obj :=
  Py.univ.Sequence.setComponentType (Py.NamedTypes [
    Py.NamedType "p" Py.univ.Integer.call,
    Py.NamedType "g" Py.univ.Integer.call,
    Py.NamedType "q" Py.univ.Integer.call,
    Py.NamedType "j" Py.univ.Integer.call,
    Py.OptionalNamedType "validationParms" Rfc2459.ValidationParms.call])

/-- rfc2459.py:334 -/
def id_dsa : Py.Obj :=
  (Py.univ.ObjectIdentifier.call.callArcs [1, 2, 840, 10040, 4, 1])

/-- rfc2459.py:337-342 `class Dss_Parms(univ.Sequence)` -/
def Dss_Parms : Py.Obj :=
  Py.univ.Sequence.setComponentType (Py.NamedTypes [
    Py.NamedType "p" Py.univ.Integer.call,
    Py.NamedType "q" Py.univ.Integer.call,
    Py.NamedType "g" Py.univ.Integer.call])

/-- rfc2459.py:347 -/
def teletex_domain_defined_attributes : Py.Obj :=
  (Py.univ.Integer.call.callInt 6)

/-- rfc2459.py:350-355 `class TeletexDomainDefinedAttribute(univ.Sequence)` -/
def TeletexDomainDefinedAttribute : Py.Obj :=
  Py.univ.Sequence.setComponentType (Py.NamedTypes [
    Py.NamedType "type" (Py.char.TeletexString.call.addSubtypeSpec (Py.ValueSizeConstraint (.fin 1) Rfc2459.ub_domain_defined_attribute_type_length.bound)),
    Py.NamedType "value" Py.char.TeletexString.call])

/-- rfc2459.py:358-360 `class TeletexDomainDefinedAttributes(univ.SequenceOf)` -/
def TeletexDomainDefinedAttributes : Py.Obj :=
  (Py.univ.SequenceOf.setComponentTypeOf Rfc2459.TeletexDomainDefinedAttribute.call).setSizeSpec (Py.univ.SequenceOf.sizeSpec.add (Py.ValueSizeConstraint (.fin 1) Rfc2459.ub_domain_defined_attributes.bound))

/-- rfc2459.py:363 -/
def terminal_type : Py.Obj :=
  (Py.univ.Integer.call.callInt 23)

/-- rfc2459.py:366-375 `class TerminalType(univ.Integer)` -/
def TerminalType : Py.Obj :=
  (Py.univ.Integer.setSubtypeSpec (Py.univ.Integer.subtypeSpec.add (Py.ValueSizeConstraint (.fin 0) Rfc2459.ub_integer_options.bound))).setNamedValues (Py.NamedValues [("telex", 3), ("teletelex", 4), ("g3-facsimile", 5), ("g4-facsimile", 6), ("ia5-terminal", 7), ("videotex", 8)])

/-- rfc2459.py:378-389 `class PresentationAddress(univ.Sequence)` -/
def PresentationAddress : Py.Obj :=
  Py.univ.Sequence.setComponentType (Py.NamedTypes [
    Py.OptionalNamedType "pSelector" (Py.univ.OctetString.call.explicitTag (Py.Tag .context false 0)),
    Py.OptionalNamedType "sSelector" (Py.univ.OctetString.call.explicitTag (Py.Tag .context false 1)),
    Py.OptionalNamedType "tSelector" (Py.univ.OctetString.call.explicitTag (Py.Tag .context false 2)),
    Py.OptionalNamedType "nAddresses" (((Py.univ.SetOf.call.setComponentTypeOf Py.univ.OctetString.call).explicitTag (Py.Tag .context false 3)).addSubtypeSpec (Py.ValueSizeConstraint (.fin 1) Rfc2459.MAX))])

/-- rfc2459.py:392 -/
def extended_network_address : Py.Obj :=
  (Py.univ.Integer.call.callInt 22)

/-- rfc2459.py:395-403 `class E163_4_address(univ.Sequence)` -/
def E163_4_address : Py.Obj :=
  Py.univ.Sequence.setComponentType (Py.NamedTypes [
    Py.NamedType "number" ((Py.char.NumericString.call.explicitTag (Py.Tag .context false 0)).addSubtypeSpec (Py.ValueSizeConstraint (.fin 1) Rfc2459.ub_e163_4_number_length.bound)),
    Py.OptionalNamedType "sub-address" ((Py.char.NumericString.call.explicitTag (Py.Tag .context false 1)).addSubtypeSpec (Py.ValueSizeConstraint (.fin 1) Rfc2459.ub_e163_4_sub_address_length.bound))])

/-- rfc2459.py:406-411 `class ExtendedNetworkAddress(univ.Choice)` -/
def ExtendedNetworkAddress : Py.Obj :=
  Py.univ.Choice.setComponentType (Py.NamedTypes [
    Py.NamedType "e163-4-address" Rfc2459.E163_4_address.call,
    Py.NamedType "psap-address" (Rfc2459.PresentationAddress.call.explicitTag (Py.Tag .context false 0))])

/-- rfc2459.py:414-420 `class PDSParameter(univ.Set)` -/
def PDSParameter : Py.Obj :=
  Py.univ.Set.setComponentType (Py.NamedTypes [
    Py.OptionalNamedType "printable-string" (Py.char.PrintableString.call.addSubtypeSpec (Py.ValueSizeConstraint (.fin 1) Rfc2459.ub_pds_parameter_length.bound)),
    Py.OptionalNamedType "teletex-string" (Py.char.TeletexString.call.addSubtypeSpec (Py.ValueSizeConstraint (.fin 1) Rfc2459.ub_pds_parameter_length.bound))])

/-- rfc2459.py:423 -/
def local_postal_attributes : Py.Obj :=
  (Py.univ.Integer.call.callInt 21)

/-- rfc2459.py:426-427 `class LocalPostalAttributes(PDSParameter)` -/
def LocalPostalAttributes : Py.Obj :=
  Rfc2459.PDSParameter

/-- rfc2459.py:430-431 `class UniquePostalName(PDSParameter)` -/
def UniquePostalName : Py.Obj :=
  Rfc2459.PDSParameter

/-- rfc2459.py:434 -/
def unique_postal_name : Py.Obj :=
  (Py.univ.Integer.call.callInt 20)

/-- rfc2459.py:436 -/
def poste_restante_address : Py.Obj :=
  (Py.univ.Integer.call.callInt 19)

/-- rfc2459.py:439-440 `class PosteRestanteAddress(PDSParameter)` -/
def PosteRestanteAddress : Py.Obj :=
  Rfc2459.PDSParameter

/-- rfc2459.py:443 -/
def post_office_box_address : Py.Obj :=
  (Py.univ.Integer.call.callInt 18)

/-- rfc2459.py:446-447 `class PostOfficeBoxAddress(PDSParameter)` -/
def PostOfficeBoxAddress : Py.Obj :=
  Rfc2459.PDSParameter

/-- rfc2459.py:450 -/
def street_address : Py.Obj :=
  (Py.univ.Integer.call.callInt 17)

/-- rfc2459.py:453-454 `class StreetAddress(PDSParameter)` -/
def StreetAddress : Py.Obj :=
  Rfc2459.PDSParameter

/-- rfc2459.py:457-464 `class UnformattedPostalAddress(univ.Set)` -/
def UnformattedPostalAddress : Py.Obj :=
  Py.univ.Set.setComponentType (Py.NamedTypes [
    Py.OptionalNamedType "printable-address" (Py.univ.SequenceOf.call.setComponentTypeOf ((Py.char.PrintableString.call.addSubtypeSpec (Py.ValueSizeConstraint (.fin 1) Rfc2459.ub_pds_parameter_length.bound)).addSubtypeSpec (Py.ValueSizeConstraint (.fin 1) Rfc2459.ub_pds_physical_address_lines.bound))),
    Py.OptionalNamedType "teletex-string" (Py.char.TeletexString.call.addSubtypeSpec (Py.ValueSizeConstraint (.fin 1) Rfc2459.ub_unformatted_address_length.bound))])

/-- rfc2459.py:467 -/
def physical_delivery_office_name : Py.Obj :=
  (Py.univ.Integer.call.callInt 10)

/-- rfc2459.py:470-471 `class PhysicalDeliveryOfficeName(PDSParameter)` -/
def PhysicalDeliveryOfficeName : Py.Obj :=
  Rfc2459.PDSParameter

/-- rfc2459.py:474 -/
def physical_delivery_office_number : Py.Obj :=
  (Py.univ.Integer.call.callInt 11)

/-- rfc2459.py:477-478 `class PhysicalDeliveryOfficeNumber(PDSParameter)` -/
def PhysicalDeliveryOfficeNumber : Py.Obj :=
  Rfc2459.PDSParameter

/-- rfc2459.py:481 -/
def extension_OR_address_components : Py.Obj :=
  (Py.univ.Integer.call.callInt 12)

/-- rfc2459.py:484-485 `class ExtensionORAddressComponents(PDSParameter)` -/
def ExtensionORAddressComponents : Py.Obj :=
  Rfc2459.PDSParameter

/-- rfc2459.py:488 -/
def physical_delivery_personal_name : Py.Obj :=
  (Py.univ.Integer.call.callInt 13)

/-- rfc2459.py:491-492 `class PhysicalDeliveryPersonalName(PDSParameter)` -/
def PhysicalDeliveryPersonalName : Py.Obj :=
  Rfc2459.PDSParameter

/-- rfc2459.py:495 -/
def physical_delivery_organization_name : Py.Obj :=
  (Py.univ.Integer.call.callInt 14)

/-- rfc2459.py:498-499 `class PhysicalDeliveryOrganizationName(PDSParameter)` -/
def PhysicalDeliveryOrganizationName : Py.Obj :=
  Rfc2459.PDSParameter

/-- rfc2459.py:502 -/
def extension_physical_delivery_address_components : Py.Obj :=
  (Py.univ.Integer.call.callInt 15)

/-- rfc2459.py:505-506 `class ExtensionPhysicalDeliveryAddressComponents(PDSParameter)` -/
def ExtensionPhysicalDeliveryAddressComponents : Py.Obj :=
  Rfc2459.PDSParameter

/-- rfc2459.py:509 -/
def unformatted_postal_address : Py.Obj :=
  (Py.univ.Integer.call.callInt 16)

/-- rfc2459.py:511 -/
def postal_code : Py.Obj :=
  (Py.univ.Integer.call.callInt 9)

/-- rfc2459.py:514-520 `class PostalCode(univ.Choice)` -/
def PostalCode : Py.Obj :=
  Py.univ.Choice.setComponentType (Py.NamedTypes [
    Py.NamedType "numeric-code" (Py.char.NumericString.call.addSubtypeSpec (Py.ValueSizeConstraint (.fin 1) Rfc2459.ub_postal_code_length.bound)),
    Py.NamedType "printable-code" (Py.char.PrintableString.call.addSubtypeSpec (Py.ValueSizeConstraint (.fin 1) Rfc2459.ub_postal_code_length.bound))])

/-- rfc2459.py:523-530 `class PhysicalDeliveryCountryName(univ.Choice)` -/
def PhysicalDeliveryCountryName : Py.Obj :=
  Py.univ.Choice.setComponentType (Py.NamedTypes [
    Py.NamedType "x121-dcc-code" (Py.char.NumericString.call.addSubtypeSpec (Py.ValueSizeConstraint Rfc2459.ub_country_name_numeric_length.bound Rfc2459.ub_country_name_numeric_length.bound)),
    Py.NamedType "iso-3166-alpha2-code" (Py.char.PrintableString.call.addSubtypeSpec (Py.ValueSizeConstraint Rfc2459.ub_country_name_alpha_length.bound Rfc2459.ub_country_name_alpha_length.bound))])

/-- rfc2459.py:533-534 `class PDSName(char.PrintableString)` -/
def PDSName : Py.Obj :=
  Py.char.PrintableString.setSubtypeSpec (Py.char.PrintableString.subtypeSpec.add (Py.ValueSizeConstraint (.fin 1) Rfc2459.ub_pds_name_length.bound))

/-- rfc2459.py:537 -/
def physical_delivery_country_name : Py.Obj :=
  (Py.univ.Integer.call.callInt 8)

/-- rfc2459.py:540-541 `class TeletexOrganizationalUnitName(char.TeletexString)` -/
def TeletexOrganizationalUnitName : Py.Obj :=
  Py.char.TeletexString.setSubtypeSpec (Py.char.TeletexString.subtypeSpec.add (Py.ValueSizeConstraint (.fin 1) Rfc2459.ub_organizational_unit_name_length.bound))

/-- rfc2459.py:544 -/
def pds_name : Py.Obj :=
  (Py.univ.Integer.call.callInt 7)

/-- rfc2459.py:546 -/
def teletex_organizational_unit_names : Py.Obj :=
  (Py.univ.Integer.call.callInt 5)

/-- rfc2459.py:549-551 `class TeletexOrganizationalUnitNames(univ.SequenceOf)` -/
def TeletexOrganizationalUnitNames : Py.Obj :=
  (Py.univ.SequenceOf.setComponentTypeOf Rfc2459.TeletexOrganizationalUnitName.call).setSizeSpec (Py.univ.SequenceOf.sizeSpec.add (Py.ValueSizeConstraint (.fin 1) Rfc2459.ub_organizational_units.bound))

/-- rfc2459.py:554 -/
def teletex_personal_name : Py.Obj :=
  (Py.univ.Integer.call.callInt 4)

/-- rfc2459.py:557-571 `class TeletexPersonalName(univ.Set)` -/
def TeletexPersonalName : Py.Obj :=
  Py.univ.Set.setComponentType (Py.NamedTypes [
    Py.NamedType "surname" ((Py.char.TeletexString.call.explicitTag (Py.Tag .context false 0)).addSubtypeSpec (Py.ValueSizeConstraint (.fin 1) Rfc2459.ub_surname_length.bound)),
    Py.OptionalNamedType "given-name" ((Py.char.TeletexString.call.explicitTag (Py.Tag .context false 1)).addSubtypeSpec (Py.ValueSizeConstraint (.fin 1) Rfc2459.ub_given_name_length.bound)),
    Py.OptionalNamedType "initials" ((Py.char.TeletexString.call.explicitTag (Py.Tag .context false 2)).addSubtypeSpec (Py.ValueSizeConstraint (.fin 1) Rfc2459.ub_initials_length.bound)),
    Py.OptionalNamedType "generation-qualifier" ((Py.char.TeletexString.call.explicitTag (Py.Tag .context false 3)).addSubtypeSpec (Py.ValueSizeConstraint (.fin 1) Rfc2459.ub_generation_qualifier_length.bound))])

/-- rfc2459.py:574 -/
def teletex_organization_name : Py.Obj :=
  (Py.univ.Integer.call.callInt 3)

/-- rfc2459.py:577-578 `class TeletexOrganizationName(char.TeletexString)` -/
def TeletexOrganizationName : Py.Obj :=
  Py.char.TeletexString.setSubtypeSpec (Py.char.TeletexString.subtypeSpec.add (Py.ValueSizeConstraint (.fin 1) Rfc2459.ub_organization_name_length.bound))

/-- rfc2459.py:581 -/
def teletex_common_name : Py.Obj :=
  (Py.univ.Integer.call.callInt 2)

/-- rfc2459.py:584-585 `class TeletexCommonName(char.TeletexString)` -/
def TeletexCommonName : Py.Obj :=
  Py.char.TeletexString.setSubtypeSpec (Py.char.TeletexString.subtypeSpec.add (Py.ValueSizeConstraint (.fin 1) Rfc2459.ub_common_name_length.bound))

/-- rfc2459.py:588-589 `class CommonName(char.PrintableString)` -/
def CommonName : Py.Obj :=
  Py.char.PrintableString.setSubtypeSpec (Py.char.PrintableString.subtypeSpec.add (Py.ValueSizeConstraint (.fin 1) Rfc2459.ub_common_name_length.bound))

/-- rfc2459.py:592 -/
def common_name : Py.Obj :=
  (Py.univ.Integer.call.callInt 1)

/-- rfc2459.py:595-602 `class ExtensionAttribute(univ.Sequence)` -/
def ExtensionAttribute : Py.Obj :=
  Py.univ.Sequence.setComponentType (Py.NamedTypes [
    Py.NamedType "extension-attribute-type" ((Py.univ.Integer.call.explicitTag (Py.Tag .context false 0)).addSubtypeSpec (Py.ValueSizeConstraint (.fin 0) Rfc2459.ub_extension_attributes.bound)),
    Py.NamedType "extension-attribute-value" (Py.univ.Any.call.explicitTag (Py.Tag .context false 1))])

/-- rfc2459.py:605-607 `class ExtensionAttributes(univ.SetOf)` -/
def ExtensionAttributes : Py.Obj :=
  (Py.univ.SetOf.setComponentTypeOf Rfc2459.ExtensionAttribute.call).setSizeSpec (Py.univ.SetOf.sizeSpec.add (Py.ValueSizeConstraint (.fin 1) Rfc2459.ub_extension_attributes.bound))

/-- rfc2459.py:610-616 `class BuiltInDomainDefinedAttribute(univ.Sequence)` -/
def BuiltInDomainDefinedAttribute : Py.Obj :=
  Py.univ.Sequence.setComponentType (Py.NamedTypes [
    Py.NamedType "type" (Py.char.PrintableString.call.addSubtypeSpec (Py.ValueSizeConstraint (.fin 1) Rfc2459.ub_domain_defined_attribute_type_length.bound)),
    Py.NamedType "value" (Py.char.PrintableString.call.addSubtypeSpec (Py.ValueSizeConstraint (.fin 1) Rfc2459.ub_domain_defined_attribute_value_length.bound))])

/-- rfc2459.py:619-621 `class BuiltInDomainDefinedAttributes(univ.SequenceOf)` -/
def BuiltInDomainDefinedAttributes : Py.Obj :=
  (Py.univ.SequenceOf.setComponentTypeOf Rfc2459.BuiltInDomainDefinedAttribute.call).setSizeSpec (Py.univ.SequenceOf.sizeSpec.add (Py.ValueSizeConstraint (.fin 1) Rfc2459.ub_domain_defined_attributes.bound))

/-- rfc2459.py:624-625 `class OrganizationalUnitName(char.PrintableString)` -/
def OrganizationalUnitName : Py.Obj :=
  Py.char.PrintableString.setSubtypeSpec (Py.char.PrintableString.subtypeSpec.add (Py.ValueSizeConstraint (.fin 1) Rfc2459.ub_organizational_unit_name_length.bound))

/-- rfc2459.py:628-630 `class OrganizationalUnitNames(univ.SequenceOf)` -/
def OrganizationalUnitNames : Py.Obj :=
  (Py.univ.SequenceOf.setComponentTypeOf Rfc2459.OrganizationalUnitName.call).setSizeSpec (Py.univ.SequenceOf.sizeSpec.add (Py.ValueSizeConstraint (.fin 1) Rfc2459.ub_organizational_units.bound))

/-- rfc2459.py:633-647 `class PersonalName(univ.Set)` -/
def PersonalName : Py.Obj :=
  Py.univ.Set.setComponentType (Py.NamedTypes [
    Py.NamedType "surname" ((Py.char.PrintableString.call.explicitTag (Py.Tag .context false 0)).addSubtypeSpec (Py.ValueSizeConstraint (.fin 1) Rfc2459.ub_surname_length.bound)),
    Py.OptionalNamedType "given-name" ((Py.char.PrintableString.call.explicitTag (Py.Tag .context false 1)).addSubtypeSpec (Py.ValueSizeConstraint (.fin 1) Rfc2459.ub_given_name_length.bound)),
    Py.OptionalNamedType "initials" ((Py.char.PrintableString.call.explicitTag (Py.Tag .context false 2)).addSubtypeSpec (Py.ValueSizeConstraint (.fin 1) Rfc2459.ub_initials_length.bound)),
    Py.OptionalNamedType "generation-qualifier" ((Py.char.PrintableString.call.explicitTag (Py.Tag .context false 3)).addSubtypeSpec (Py.ValueSizeConstraint (.fin 1) Rfc2459.ub_generation_qualifier_length.bound))])

/-- rfc2459.py:650-651 `class NumericUserIdentifier(char.NumericString)` -/
def NumericUserIdentifier : Py.Obj :=
  Py.char.NumericString.setSubtypeSpec (Py.char.NumericString.subtypeSpec.add (Py.ValueSizeConstraint (.fin 1) Rfc2459.ub_numeric_user_id_length.bound))

/-- rfc2459.py:654-655 `class OrganizationName(char.PrintableString)` -/
def OrganizationName : Py.Obj :=
  Py.char.PrintableString.setSubtypeSpec (Py.char.PrintableString.subtypeSpec.add (Py.ValueSizeConstraint (.fin 1) Rfc2459.ub_organization_name_length.bound))

/-- rfc2459.py:658-664 `class PrivateDomainName(univ.Choice)` -/
def PrivateDomainName : Py.Obj :=
  Py.univ.Choice.setComponentType (Py.NamedTypes [
    Py.NamedType "numeric" (Py.char.NumericString.call.addSubtypeSpec (Py.ValueSizeConstraint (.fin 1) Rfc2459.ub_domain_name_length.bound)),
    Py.NamedType "printable" (Py.char.PrintableString.call.addSubtypeSpec (Py.ValueSizeConstraint (.fin 1) Rfc2459.ub_domain_name_length.bound))])

/-- rfc2459.py:667-668 `class TerminalIdentifier(char.PrintableString)` -/
def TerminalIdentifier : Py.Obj :=
  Py.char.PrintableString.setSubtypeSpec (Py.char.PrintableString.subtypeSpec.add (Py.ValueSizeConstraint (.fin 1) Rfc2459.ub_terminal_id_length.bound))

/-- rfc2459.py:671-672 `class X121Address(char.NumericString)` -/
def X121Address : Py.Obj :=
  Py.char.NumericString.setSubtypeSpec (Py.char.NumericString.subtypeSpec.add (Py.ValueSizeConstraint (.fin 1) Rfc2459.ub_x121_address_length.bound))

/-- rfc2459.py:675-676 `class NetworkAddress(X121Address)` -/
def NetworkAddress : Py.Obj :=
  Rfc2459.X121Address

/-- rfc2459.py:679-688 `class AdministrationDomainName(univ.Choice)` -/
def AdministrationDomainName : Py.Obj :=
  (Py.univ.Choice.setTagSet (Py.univ.Choice.tagSet.tagExplicitly (Py.Tag .application true 2))).setComponentType (Py.NamedTypes [
    Py.NamedType "numeric" (Py.char.NumericString.call.addSubtypeSpec (Py.ValueSizeConstraint (.fin 0) Rfc2459.ub_domain_name_length.bound)),
    Py.NamedType "printable" (Py.char.PrintableString.call.addSubtypeSpec (Py.ValueSizeConstraint (.fin 0) Rfc2459.ub_domain_name_length.bound))])

/-- rfc2459.py:691-701 `class CountryName(univ.Choice)` -/
def CountryName : Py.Obj :=
  (Py.univ.Choice.setTagSet (Py.univ.Choice.tagSet.tagExplicitly (Py.Tag .application true 1))).setComponentType (Py.NamedTypes [
    Py.NamedType "x121-dcc-code" (Py.char.NumericString.call.addSubtypeSpec (Py.ValueSizeConstraint Rfc2459.ub_country_name_numeric_length.bound Rfc2459.ub_country_name_numeric_length.bound)),
    Py.NamedType "iso-3166-alpha2-code" (Py.char.PrintableString.call.addSubtypeSpec (Py.ValueSizeConstraint Rfc2459.ub_country_name_alpha_length.bound Rfc2459.ub_country_name_alpha_length.bound))])

/-- rfc2459.py:704-722 `class BuiltInStandardAttributes(univ.Sequence)` -/
def BuiltInStandardAttributes : Py.Obj :=
  Py.univ.Sequence.setComponentType (Py.NamedTypes [
    Py.OptionalNamedType "country-name" Rfc2459.CountryName.call,
    Py.OptionalNamedType "administration-domain-name" Rfc2459.AdministrationDomainName.call,
    Py.OptionalNamedType "network-address" (Rfc2459.NetworkAddress.call.explicitTag (Py.Tag .context false 0)),
    Py.OptionalNamedType "terminal-identifier" (Rfc2459.TerminalIdentifier.call.explicitTag (Py.Tag .context false 1)),
    Py.OptionalNamedType "private-domain-name" (Rfc2459.PrivateDomainName.call.explicitTag (Py.Tag .context false 2)),
    Py.OptionalNamedType "organization-name" (Rfc2459.OrganizationName.call.explicitTag (Py.Tag .context false 3)),
    Py.OptionalNamedType "numeric-user-identifier" (Rfc2459.NumericUserIdentifier.call.explicitTag (Py.Tag .context false 4)),
    Py.OptionalNamedType "personal-name" (Rfc2459.PersonalName.call.explicitTag (Py.Tag .context false 5)),
    Py.OptionalNamedType "organizational-unit-names" (Rfc2459.OrganizationalUnitNames.call.explicitTag (Py.Tag .context false 6))])

/-- rfc2459.py:725-730 `class ORAddress(univ.Sequence)` -/
def ORAddress : Py.Obj :=
  Py.univ.Sequence.setComponentType (Py.NamedTypes [
    Py.NamedType "built-in-standard-attributes" Rfc2459.BuiltInStandardAttributes.call,
    Py.OptionalNamedType "built-in-domain-defined-attributes" Rfc2459.BuiltInDomainDefinedAttributes.call,
    Py.OptionalNamedType "extension-attributes" Rfc2459.ExtensionAttributes.call])

/-- rfc2459.py:737 -/
def id_ce_invalidityDate : Py.Obj :=
  (Py.univ.ObjectIdentifier.call.callArcs [2, 5, 29, 24])

/-- rfc2459.py:740-741 `class InvalidityDate(useful.GeneralizedTime)` -/
def InvalidityDate : Py.Obj :=
  Py.useful.GeneralizedTime

/-- rfc2459.py:744 -/
def id_holdinstruction_none : Py.Obj :=
  (Py.univ.ObjectIdentifier.call.callArcs [2, 2, 840, 10040, 2, 1])

/-- rfc2459.py:745 -/
def id_holdinstruction_callissuer : Py.Obj :=
  (Py.univ.ObjectIdentifier.call.callArcs [2, 2, 840, 10040, 2, 2])

/-- rfc2459.py:746 -/
def id_holdinstruction_reject : Py.Obj :=
  (Py.univ.ObjectIdentifier.call.callArcs [2, 2, 840, 10040, 2, 3])

/-- rfc2459.py:748 -/
def holdInstruction : Py.Obj :=
  (Py.univ.ObjectIdentifier.call.callArcs [2, 2, 840, 10040, 2])

/-- rfc2459.py:750 -/
def id_ce_holdInstructionCode : Py.Obj :=
  (Py.univ.ObjectIdentifier.call.callArcs [2, 5, 29, 23])

/-- rfc2459.py:753-754 `class HoldInstructionCode(univ.ObjectIdentifier)` -/
def HoldInstructionCode : Py.Obj :=
  Py.univ.ObjectIdentifier

/-- rfc2459.py:757 -/
def id_ce_cRLReasons : Py.Obj :=
  (Py.univ.ObjectIdentifier.call.callArcs [2, 5, 29, 21])

/-- rfc2459.py:760-770 `class CRLReason(univ.Enumerated)` -/
def CRLReason : Py.Obj :=
  Py.univ.Enumerated.setNamedValues (Py.NamedValues [("unspecified", 0), ("keyCompromise", 1), ("cACompromise", 2), ("affiliationChanged", 3), ("superseded", 4), ("cessationOfOperation", 5), ("certificateHold", 6), ("removeFromCRL", 8)])

/-- rfc2459.py:773 -/
def id_ce_cRLNumber : Py.Obj :=
  (Py.univ.ObjectIdentifier.call.callArcs [2, 5, 29, 20])

/-- rfc2459.py:776-777 `class CRLNumber(univ.Integer)` -/
def CRLNumber : Py.Obj :=
  Py.univ.Integer.setSubtypeSpec (Py.univ.Integer.subtypeSpec.add (Py.ValueSizeConstraint (.fin 0) Rfc2459.MAX))

/-- rfc2459.py:780-781 `class BaseCRLNumber(CRLNumber)` -/
def BaseCRLNumber : Py.Obj :=
  Rfc2459.CRLNumber

/-- rfc2459.py:784 -/
def id_kp_serverAuth : Py.Obj :=
  (Py.univ.ObjectIdentifier.call.callArcs [1, 3, 6, 1, 5, 5, 7, 3, 1])

/-- rfc2459.py:785 -/
def id_kp_clientAuth : Py.Obj :=
  (Py.univ.ObjectIdentifier.call.callArcs [1, 3, 6, 1, 5, 5, 7, 3, 2])

/-- rfc2459.py:786 -/
def id_kp_codeSigning : Py.Obj :=
  (Py.univ.ObjectIdentifier.call.callArcs [1, 3, 6, 1, 5, 5, 7, 3, 3])

/-- rfc2459.py:787 -/
def id_kp_emailProtection : Py.Obj :=
  (Py.univ.ObjectIdentifier.call.callArcs [1, 3, 6, 1, 5, 5, 7, 3, 4])

/-- rfc2459.py:788 -/
def id_kp_ipsecEndSystem : Py.Obj :=
  (Py.univ.ObjectIdentifier.call.callArcs [1, 3, 6, 1, 5, 5, 7, 3, 5])

/-- rfc2459.py:789 -/
def id_kp_ipsecTunnel : Py.Obj :=
  (Py.univ.ObjectIdentifier.call.callArcs [1, 3, 6, 1, 5, 5, 7, 3, 6])

/-- rfc2459.py:790 -/
def id_kp_ipsecUser : Py.Obj :=
  (Py.univ.ObjectIdentifier.call.callArcs [1, 3, 6, 1, 5, 5, 7, 3, 7])

/-- rfc2459.py:791 -/
def id_kp_timeStamping : Py.Obj :=
  (Py.univ.ObjectIdentifier.call.callArcs [1, 3, 6, 1, 5, 5, 7, 3, 8])

/-- rfc2459.py:792 -/
def id_pe_authorityInfoAccess : Py.Obj :=
  (Py.univ.ObjectIdentifier.call.callArcs [1, 3, 6, 1, 5, 5, 7, 1, 1])

/-- rfc2459.py:793 -/
def id_ce_extKeyUsage : Py.Obj :=
  (Py.univ.ObjectIdentifier.call.callArcs [2, 5, 29, 37])

/-- rfc2459.py:796-797 `class KeyPurposeId(univ.ObjectIdentifier)` -/
def KeyPurposeId : Py.Obj :=
  Py.univ.ObjectIdentifier

/-- rfc2459.py:800-802 `class ExtKeyUsageSyntax(univ.SequenceOf)` -/
def ExtKeyUsageSyntax : Py.Obj :=
  (Py.univ.SequenceOf.setComponentTypeOf Rfc2459.KeyPurposeId.call).setSizeSpec (Py.univ.SequenceOf.sizeSpec.add (Py.ValueSizeConstraint (.fin 1) Rfc2459.MAX))

/-- rfc2459.py:805-814 `class ReasonFlags(univ.BitString)` -/
def ReasonFlags : Py.Obj :=
  Py.univ.BitString.setNamedValues (Py.NamedValues [("unused", 0), ("keyCompromise", 1), ("cACompromise", 2), ("affiliationChanged", 3), ("superseded", 4), ("cessationOfOperation", 5), ("certificateHold", 6)])

/-- rfc2459.py:817-818 `class SkipCerts(univ.Integer)` -/
def SkipCerts : Py.Obj :=
  Py.univ.Integer.setSubtypeSpec (Py.univ.Integer.subtypeSpec.add (Py.ValueSizeConstraint (.fin 0) Rfc2459.MAX))

/-- rfc2459.py:821 -/
def id_ce_policyConstraints : Py.Obj :=
  (Py.univ.ObjectIdentifier.call.callArcs [2, 5, 29, 36])

/-- rfc2459.py:824-830 `class PolicyConstraints(univ.Sequence)` -/
def PolicyConstraints : Py.Obj :=
  Py.univ.Sequence.setComponentType (Py.NamedTypes [
    Py.OptionalNamedType "requireExplicitPolicy" (Rfc2459.SkipCerts.call.implicitTag (Py.Tag .context true 0)),
    Py.OptionalNamedType "inhibitPolicyMapping" (Rfc2459.SkipCerts.call.implicitTag (Py.Tag .context true 1))])

/-- rfc2459.py:833 -/
def id_ce_basicConstraints : Py.Obj :=
  (Py.univ.ObjectIdentifier.call.callArcs [2, 5, 29, 19])

/-- rfc2459.py:836-841 `class BasicConstraints(univ.Sequence)` -/
def BasicConstraints : Py.Obj :=
  Py.univ.Sequence.setComponentType (Py.NamedTypes [
    Py.DefaultedNamedType "cA" (Py.univ.Boolean.call.callInt 0),
    Py.OptionalNamedType "pathLenConstraint" (Py.univ.Integer.call.addSubtypeSpec (Py.ValueRangeConstraint (.fin 0) Rfc2459.MAX))])

/-- rfc2459.py:844 -/
def id_ce_subjectDirectoryAttributes : Py.Obj :=
  (Py.univ.ObjectIdentifier.call.callArcs [2, 5, 29, 9])

/-- rfc2459.py:847-853 `class EDIPartyName(univ.Sequence)` -/
def EDIPartyName : Py.Obj :=
  Py.univ.Sequence.setComponentType (Py.NamedTypes [
    Py.OptionalNamedType "nameAssigner" (Rfc2459.DirectoryString.call.implicitTag (Py.Tag .context false 0)),
    Py.NamedType "partyName" (Rfc2459.DirectoryString.call.implicitTag (Py.Tag .context false 1))])

/-- rfc2459.py:857 -/
def id_ce_deltaCRLIndicator : Py.Obj :=
  (Py.univ.ObjectIdentifier.call.callArcs [2, 5, 29, 27])

/-- rfc2459.py:861-862 `class BaseDistance(univ.Integer)` -/
def BaseDistance : Py.Obj :=
  Py.univ.Integer.setSubtypeSpec (Py.univ.Integer.subtypeSpec.add (Py.ValueRangeConstraint (.fin 0) Rfc2459.MAX))

/-- rfc2459.py:865 -/
def id_ce_cRLDistributionPoints : Py.Obj :=
  (Py.univ.ObjectIdentifier.call.callArcs [2, 5, 29, 31])

/-- rfc2459.py:868 -/
def id_ce_issuingDistributionPoint : Py.Obj :=
  (Py.univ.ObjectIdentifier.call.callArcs [2, 5, 29, 28])

/-- rfc2459.py:873 -/
def id_ce_nameConstraints : Py.Obj :=
  (Py.univ.ObjectIdentifier.call.callArcs [2, 5, 29, 30])

/-- rfc2459.py:876-882 `class DisplayText(univ.Choice)` -/
def DisplayText : Py.Obj :=
  Py.univ.Choice.setComponentType (Py.NamedTypes [
    Py.NamedType "visibleString" (Py.char.VisibleString.call.addSubtypeSpec (Py.ValueSizeConstraint (.fin 1) (.fin 200))),
    Py.NamedType "bmpString" (Py.char.BMPString.call.addSubtypeSpec (Py.ValueSizeConstraint (.fin 1) (.fin 200))),
    Py.NamedType "utf8String" (Py.char.UTF8String.call.addSubtypeSpec (Py.ValueSizeConstraint (.fin 1) (.fin 200)))])

/-- rfc2459.py:885-889 `class NoticeReference(univ.Sequence)` -/
def NoticeReference : Py.Obj :=
  Py.univ.Sequence.setComponentType (Py.NamedTypes [
    Py.NamedType "organization" Rfc2459.DisplayText.call,
    Py.NamedType "noticeNumbers" (Py.univ.SequenceOf.call.setComponentTypeOf Py.univ.Integer.call)])

/-- rfc2459.py:892-896 `class UserNotice(univ.Sequence)` -/
def UserNotice : Py.Obj :=
  Py.univ.Sequence.setComponentType (Py.NamedTypes [
    Py.OptionalNamedType "noticeRef" Rfc2459.NoticeReference.call,
    Py.OptionalNamedType "explicitText" Rfc2459.DisplayText.call])

/-- rfc2459.py:899-900 `class CPSuri(char.IA5String)` -/
def CPSuri : Py.Obj :=
  Py.char.IA5String

/-- rfc2459.py:903-904 `class PolicyQualifierId(univ.ObjectIdentifier)` -/
def PolicyQualifierId : Py.Obj :=
  Py.univ.ObjectIdentifier.setSubtypeSpec (Py.univ.ObjectIdentifier.subtypeSpec.add (Py.SingleValueConstraint [Rfc2459.id_qt_cps.value, Rfc2459.id_qt_unotice.value]))

/-- rfc2459.py:907-908 `class CertPolicyId(univ.ObjectIdentifier)` -/
def CertPolicyId : Py.Obj :=
  Py.univ.ObjectIdentifier

/-- rfc2459.py:911-915 `class PolicyQualifierInfo(univ.Sequence)` -/
def PolicyQualifierInfo : Py.Obj :=
  Py.univ.Sequence.setComponentType (Py.NamedTypes [
    Py.NamedType "policyQualifierId" Rfc2459.PolicyQualifierId.call,
    Py.NamedType "qualifier" Py.univ.Any.call])

/-- rfc2459.py:918 -/
def id_ce_certificatePolicies : Py.Obj :=
  (Py.univ.ObjectIdentifier.call.callArcs [2, 5, 29, 32])

/-- rfc2459.py:921-926 `class PolicyInformation(univ.Sequence)` -/
def PolicyInformation : Py.Obj :=
  Py.univ.Sequence.setComponentType (Py.NamedTypes [
    Py.NamedType "policyIdentifier" Rfc2459.CertPolicyId.call,
    Py.OptionalNamedType "policyQualifiers" ((Py.univ.SequenceOf.call.setComponentTypeOf Rfc2459.PolicyQualifierInfo.call).addSubtypeSpec (Py.ValueSizeConstraint (.fin 1) Rfc2459.MAX))])

/-- rfc2459.py:929-931 `class CertificatePolicies(univ.SequenceOf)` -/
def CertificatePolicies : Py.Obj :=
  (Py.univ.SequenceOf.setComponentTypeOf Rfc2459.PolicyInformation.call).setSizeSpec (Py.univ.SequenceOf.sizeSpec.add (Py.ValueSizeConstraint (.fin 1) Rfc2459.MAX))

/-- rfc2459.py:934 -/
def id_ce_policyMappings : Py.Obj :=
  (Py.univ.ObjectIdentifier.call.callArcs [2, 5, 29, 33])

/-- rfc2459.py:937-941 `class PolicyMapping(univ.Sequence)` -/
def PolicyMapping : Py.Obj :=
  Py.univ.Sequence.setComponentType (Py.NamedTypes [
    Py.NamedType "issuerDomainPolicy" Rfc2459.CertPolicyId.call,
    Py.NamedType "subjectDomainPolicy" Rfc2459.CertPolicyId.call])

/-- rfc2459.py:944-946 `class PolicyMappings(univ.SequenceOf)` -/
def PolicyMappings : Py.Obj :=
  (Py.univ.SequenceOf.setComponentTypeOf Rfc2459.PolicyMapping.call).setSizeSpec (Py.univ.SequenceOf.sizeSpec.add (Py.ValueSizeConstraint (.fin 1) Rfc2459.MAX))

/-- rfc2459.py:949 -/
def id_ce_privateKeyUsagePeriod : Py.Obj :=
  (Py.univ.ObjectIdentifier.call.callArcs [2, 5, 29, 16])

/-- rfc2459.py:952-958 `class PrivateKeyUsagePeriod(univ.Sequence)` -/
def PrivateKeyUsagePeriod : Py.Obj :=
  Py.univ.Sequence.setComponentType (Py.NamedTypes [
    Py.OptionalNamedType "notBefore" (Py.useful.GeneralizedTime.call.implicitTag (Py.Tag .context false 0)),
    Py.OptionalNamedType "notAfter" (Py.useful.GeneralizedTime.call.implicitTag (Py.Tag .context false 1))])

/-- rfc2459.py:961 -/
def id_ce_keyUsage : Py.Obj :=
  (Py.univ.ObjectIdentifier.call.callArcs [2, 5, 29, 15])

/-- rfc2459.py:964-975 `class KeyUsage(univ.BitString)` -/
def KeyUsage : Py.Obj :=
  Py.univ.BitString.setNamedValues (Py.NamedValues [("digitalSignature", 0), ("nonRepudiation", 1), ("keyEncipherment", 2), ("dataEncipherment", 3), ("keyAgreement", 4), ("keyCertSign", 5), ("cRLSign", 6), ("encipherOnly", 7), ("decipherOnly", 8)])

/-- rfc2459.py:978 -/
def id_ce : Py.Obj :=
  (Py.univ.ObjectIdentifier.call.callArcs [2, 5, 29])

/-- rfc2459.py:980 -/
def id_ce_authorityKeyIdentifier : Py.Obj :=
  (Py.univ.ObjectIdentifier.call.callArcs [2, 5, 29, 35])

/-- rfc2459.py:983-984 `class KeyIdentifier(univ.OctetString)` -/
def KeyIdentifier : Py.Obj :=
  Py.univ.OctetString

/-- rfc2459.py:987 -/
def id_ce_subjectKeyIdentifier : Py.Obj :=
  (Py.univ.ObjectIdentifier.call.callArcs [2, 5, 29, 14])

/-- rfc2459.py:990-991 `class SubjectKeyIdentifier(KeyIdentifier)` -/
def SubjectKeyIdentifier : Py.Obj :=
  Rfc2459.KeyIdentifier

/-- rfc2459.py:994 -/
def id_ce_certificateIssuer : Py.Obj :=
  (Py.univ.ObjectIdentifier.call.callArcs [2, 5, 29, 29])

/-- rfc2459.py:997 -/
def id_ce_subjectAltName : Py.Obj :=
  (Py.univ.ObjectIdentifier.call.callArcs [2, 5, 29, 17])

/-- rfc2459.py:1000 -/
def id_ce_issuerAltName : Py.Obj :=
  (Py.univ.ObjectIdentifier.call.callArcs [2, 5, 29, 18])

/-- rfc2459.py:1003-1004 `class AttributeValue(univ.Any)` -/
def AttributeValue : Py.Obj :=
  Py.univ.Any

/-- rfc2459.py:1007-1008 `class AttributeType(univ.ObjectIdentifier)` -/
def AttributeType : Py.Obj :=
  Py.univ.ObjectIdentifier

/-- rfc2459.py:1010 -/
def certificateAttributesMap : Py.Entries :=
  []

/-- rfc2459.py:1013-1018 `class AttributeTypeAndValue(univ.Sequence)` -/
def AttributeTypeAndValue : Py.Obj :=
  Py.univ.Sequence.setComponentType (Py.NamedTypes [
    Py.NamedType "type" Rfc2459.AttributeType.call,
    Py.NamedType "value" Rfc2459.AttributeValue.call (openType := some (Py.OpenType "type" (Py.map 0 "rfc2459.certificateAttributesMap")))])

/-- rfc2459.py:1021-1025 `class Attribute(univ.Sequence)` -/
def Attribute : Py.Obj :=
  Py.univ.Sequence.setComponentType (Py.NamedTypes [
    Py.NamedType "type" Rfc2459.AttributeType.call,
    Py.NamedType "vals" (Py.univ.SetOf.call.setComponentTypeOf Rfc2459.AttributeValue.call)])

/-- rfc2459.py:1028-1030 `class SubjectDirectoryAttributes(univ.SequenceOf)` -/
def SubjectDirectoryAttributes : Py.Obj :=
  (Py.univ.SequenceOf.setComponentTypeOf Rfc2459.Attribute.call).setSizeSpec (Py.univ.SequenceOf.sizeSpec.add (Py.ValueSizeConstraint (.fin 1) Rfc2459.MAX))

/-- rfc2459.py:1033-1034 `class RelativeDistinguishedName(univ.SetOf)` -/
def RelativeDistinguishedName : Py.Obj :=
  Py.univ.SetOf.setComponentTypeOf Rfc2459.AttributeTypeAndValue.call

/-- rfc2459.py:1037-1038 `class RDNSequence(univ.SequenceOf)` -/
def RDNSequence : Py.Obj :=
  Py.univ.SequenceOf.setComponentTypeOf Rfc2459.RelativeDistinguishedName.call

/-- rfc2459.py:1041-1044 `class Name(univ.Choice)` -/
def Name : Py.Obj :=
  Py.univ.Choice.setComponentType (Py.NamedTypes [
    Py.NamedType "" Rfc2459.RDNSequence.call])

/-- rfc2459.py:1046-1047 `class CertificateSerialNumber(univ.Integer)` -/
def CertificateSerialNumber : Py.Obj :=
  Py.univ.Integer

/-- rfc2459.py:1050-1055 `class AnotherName(univ.Sequence)` -/
def AnotherName : Py.Obj :=
  Py.univ.Sequence.setComponentType (Py.NamedTypes [
    Py.NamedType "type-id" Py.univ.ObjectIdentifier.call,
    Py.NamedType "value" (Py.univ.Any.call.explicitTag (Py.Tag .context false 0))])

/-- rfc2459.py:1058-1078 `class GeneralName(univ.Choice)` -/
def GeneralName : Py.Obj :=
  Py.univ.Choice.setComponentType (Py.NamedTypes [
    Py.NamedType "otherName" (Rfc2459.AnotherName.call.implicitTag (Py.Tag .context false 0)),
    Py.NamedType "rfc822Name" (Py.char.IA5String.call.implicitTag (Py.Tag .context false 1)),
    Py.NamedType "dNSName" (Py.char.IA5String.call.implicitTag (Py.Tag .context false 2)),
    Py.NamedType "x400Address" (Rfc2459.ORAddress.call.implicitTag (Py.Tag .context false 3)),
    Py.NamedType "directoryName" (Rfc2459.Name.call.implicitTag (Py.Tag .context false 4)),
    Py.NamedType "ediPartyName" (Rfc2459.EDIPartyName.call.implicitTag (Py.Tag .context false 5)),
    Py.NamedType "uniformResourceIdentifier" (Py.char.IA5String.call.implicitTag (Py.Tag .context false 6)),
    Py.NamedType "iPAddress" (Py.univ.OctetString.call.implicitTag (Py.Tag .context false 7)),
    Py.NamedType "registeredID" (Py.univ.ObjectIdentifier.call.implicitTag (Py.Tag .context false 8))])

/-- rfc2459.py:1081-1083 `class GeneralNames(univ.SequenceOf)` -/
def GeneralNames : Py.Obj :=
  (Py.univ.SequenceOf.setComponentTypeOf Rfc2459.GeneralName.call).setSizeSpec (Py.univ.SequenceOf.sizeSpec.add (Py.ValueSizeConstraint (.fin 1) Rfc2459.MAX))

/-- rfc2459.py:1086-1090 `class AccessDescription(univ.Sequence)` -/
def AccessDescription : Py.Obj :=
  Py.univ.Sequence.setComponentType (Py.NamedTypes [
    Py.NamedType "accessMethod" Py.univ.ObjectIdentifier.call,
    Py.NamedType "accessLocation" Rfc2459.GeneralName.call])

/-- rfc2459.py:1093-1095 `class AuthorityInfoAccessSyntax(univ.SequenceOf)` -/
def AuthorityInfoAccessSyntax : Py.Obj :=
  (Py.univ.SequenceOf.setComponentTypeOf Rfc2459.AccessDescription.call).setSizeSpec (Py.univ.SequenceOf.sizeSpec.add (Py.ValueSizeConstraint (.fin 1) Rfc2459.MAX))

/-- rfc2459.py:1098-1106 `class AuthorityKeyIdentifier(univ.Sequence)` -/
def AuthorityKeyIdentifier : Py.Obj :=
  Py.univ.Sequence.setComponentType (Py.NamedTypes [
    Py.OptionalNamedType "keyIdentifier" (Rfc2459.KeyIdentifier.call.implicitTag (Py.Tag .context false 0)),
    Py.OptionalNamedType "authorityCertIssuer" (Rfc2459.GeneralNames.call.implicitTag (Py.Tag .context false 1)),
    Py.OptionalNamedType "authorityCertSerialNumber" (Rfc2459.CertificateSerialNumber.call.implicitTag (Py.Tag .context false 2))])

/-- rfc2459.py:1109-1115 `class DistributionPointName(univ.Choice)` -/
def DistributionPointName : Py.Obj :=
  Py.univ.Choice.setComponentType (Py.NamedTypes [
    Py.NamedType "fullName" (Rfc2459.GeneralNames.call.implicitTag (Py.Tag .context true 0)),
    Py.NamedType "nameRelativeToCRLIssuer" (Rfc2459.RelativeDistinguishedName.call.implicitTag (Py.Tag .context true 1))])

/-- rfc2459.py:1118-1126 `class DistributionPoint(univ.Sequence)` -/
def DistributionPoint : Py.Obj :=
  Py.univ.Sequence.setComponentType (Py.NamedTypes [
    Py.OptionalNamedType "distributionPoint" (Rfc2459.DistributionPointName.call.implicitTag (Py.Tag .context true 0)),
    Py.OptionalNamedType "reasons" (Rfc2459.ReasonFlags.call.implicitTag (Py.Tag .context false 1)),
    Py.OptionalNamedType "cRLIssuer" (Rfc2459.GeneralNames.call.implicitTag (Py.Tag .context true 2))])

/-- rfc2459.py:1129-1131 `class CRLDistPointsSyntax(univ.SequenceOf)` -/
def CRLDistPointsSyntax : Py.Obj :=
  (Py.univ.SequenceOf.setComponentTypeOf Rfc2459.DistributionPoint.call).setSizeSpec (Py.univ.SequenceOf.sizeSpec.add (Py.ValueSizeConstraint (.fin 1) Rfc2459.MAX))

/-- rfc2459.py:1134-1146 `class IssuingDistributionPoint(univ.Sequence)` -/
def IssuingDistributionPoint : Py.Obj :=
  Py.univ.Sequence.setComponentType (Py.NamedTypes [
    Py.OptionalNamedType "distributionPoint" (Rfc2459.DistributionPointName.call.implicitTag (Py.Tag .context true 0)),
    Py.NamedType "onlyContainsUserCerts" ((Py.univ.Boolean.call.callInt 0).implicitTag (Py.Tag .context false 1)),
    Py.NamedType "onlyContainsCACerts" ((Py.univ.Boolean.call.callInt 0).implicitTag (Py.Tag .context false 2)),
    Py.OptionalNamedType "onlySomeReasons" (Rfc2459.ReasonFlags.call.implicitTag (Py.Tag .context false 3)),
    Py.NamedType "indirectCRL" ((Py.univ.Boolean.call.callInt 0).implicitTag (Py.Tag .context false 4))])

/-- rfc2459.py:1149-1156 `class GeneralSubtree(univ.Sequence)` -/
def GeneralSubtree : Py.Obj :=
  Py.univ.Sequence.setComponentType (Py.NamedTypes [
    Py.NamedType "base" Rfc2459.GeneralName.call,
    Py.DefaultedNamedType "minimum" ((Rfc2459.BaseDistance.call.callInt 0).implicitTag (Py.Tag .context true 0)),
    Py.OptionalNamedType "maximum" (Rfc2459.BaseDistance.call.implicitTag (Py.Tag .context true 1))])

/-- rfc2459.py:1159-1161 `class GeneralSubtrees(univ.SequenceOf)` -/
def GeneralSubtrees : Py.Obj :=
  (Py.univ.SequenceOf.setComponentTypeOf Rfc2459.GeneralSubtree.call).setSizeSpec (Py.univ.SequenceOf.sizeSpec.add (Py.ValueSizeConstraint (.fin 1) Rfc2459.MAX))

/-- rfc2459.py:1164-1170 `class NameConstraints(univ.Sequence)` -/
def NameConstraints : Py.Obj :=
  Py.univ.Sequence.setComponentType (Py.NamedTypes [
    Py.OptionalNamedType "permittedSubtrees" (Rfc2459.GeneralSubtrees.call.implicitTag (Py.Tag .context true 0)),
    Py.OptionalNamedType "excludedSubtrees" (Rfc2459.GeneralSubtrees.call.implicitTag (Py.Tag .context true 1))])

/-- rfc2459.py:1173-1174 `class CertificateIssuer(GeneralNames)` -/
def CertificateIssuer : Py.Obj :=
  Rfc2459.GeneralNames

/-- rfc2459.py:1177-1178 `class SubjectAltName(GeneralNames)` -/
def SubjectAltName : Py.Obj :=
  Rfc2459.GeneralNames

/-- rfc2459.py:1181-1182 `class IssuerAltName(GeneralNames)` -/
def IssuerAltName : Py.Obj :=
  Rfc2459.GeneralNames

/-- rfc2459.py:1185 -/
def certificateExtensionsMap : Py.Entries :=
  []

/-- rfc2459.py:1188-1194 `class Extension(univ.Sequence)` -/
def Extension : Py.Obj :=
  Py.univ.Sequence.setComponentType (Py.NamedTypes [
    Py.NamedType "extnID" Py.univ.ObjectIdentifier.call,
    Py.DefaultedNamedType "critical" (Py.univ.Boolean.call.callStr "False"),
    Py.NamedType "extnValue" Py.univ.OctetString.call (openType := some (Py.OpenType "extnID" (Py.map 1 "rfc2459.certificateExtensionsMap")))])

/-- rfc2459.py:1197-1199 `class Extensions(univ.SequenceOf)` -/
def Extensions : Py.Obj :=
  (Py.univ.SequenceOf.setComponentTypeOf Rfc2459.Extension.call).setSizeSpec (Py.univ.SequenceOf.sizeSpec.add (Py.ValueSizeConstraint (.fin 1) Rfc2459.MAX))

/-- rfc2459.py:1202-1206 `class SubjectPublicKeyInfo(univ.Sequence)` -/
def SubjectPublicKeyInfo : Py.Obj :=
  Py.univ.Sequence.setComponentType (Py.NamedTypes [
    Py.NamedType "algorithm" Rfc2459.AlgorithmIdentifier.call,
    Py.NamedType "subjectPublicKey" Py.univ.BitString.call])

/-- rfc2459.py:1209-1210 `class UniqueIdentifier(univ.BitString)` -/
def UniqueIdentifier : Py.Obj :=
  Py.univ.BitString

/-- rfc2459.py:1213-1217 `class Time(univ.Choice)` -/
def Time : Py.Obj :=
  Py.univ.Choice.setComponentType (Py.NamedTypes [
    Py.NamedType "utcTime" Py.useful.UTCTime.call,
    Py.NamedType "generalTime" Py.useful.GeneralizedTime.call])

/-- rfc2459.py:1220-1224 `class Validity(univ.Sequence)` -/
def Validity : Py.Obj :=
  Py.univ.Sequence.setComponentType (Py.NamedTypes [
    Py.NamedType "notBefore" Rfc2459.Time.call,
    Py.NamedType "notAfter" Rfc2459.Time.call])

/-- rfc2459.py:1227-1230 `class Version(univ.Integer)` -/
def Version : Py.Obj :=
  Py.univ.Integer.setNamedValues (Py.NamedValues [("v1", 0), ("v2", 1), ("v3", 2)])

/-- rfc2459.py:1233-1249 `class TBSCertificate(univ.Sequence)` -/
def TBSCertificate : Py.Obj :=
  Py.univ.Sequence.setComponentType (Py.NamedTypes [
    Py.DefaultedNamedType "version" ((Rfc2459.Version.call.callStr "v1").explicitTag (Py.Tag .context false 0)),
    Py.NamedType "serialNumber" Rfc2459.CertificateSerialNumber.call,
    Py.NamedType "signature" Rfc2459.AlgorithmIdentifier.call,
    Py.NamedType "issuer" Rfc2459.Name.call,
    Py.NamedType "validity" Rfc2459.Validity.call,
    Py.NamedType "subject" Rfc2459.Name.call,
    Py.NamedType "subjectPublicKeyInfo" Rfc2459.SubjectPublicKeyInfo.call,
    Py.OptionalNamedType "issuerUniqueID" (Rfc2459.UniqueIdentifier.call.implicitTag (Py.Tag .context false 1)),
    Py.OptionalNamedType "subjectUniqueID" (Rfc2459.UniqueIdentifier.call.implicitTag (Py.Tag .context false 2)),
    Py.OptionalNamedType "extensions" (Rfc2459.Extensions.call.explicitTag (Py.Tag .context false 3))])

/-- rfc2459.py:1252-1257 `class Certificate(univ.Sequence)` -/
def Certificate : Py.Obj :=
  Py.univ.Sequence.setComponentType (Py.NamedTypes [
    Py.NamedType "tbsCertificate" Rfc2459.TBSCertificate.call,
    Py.NamedType "signatureAlgorithm" Rfc2459.AlgorithmIdentifier.call,
    Py.NamedType "signatureValue" Py.univ.BitString.call])

/-- rfc2459.py:1261-1266 `class RevokedCertificate(univ.Sequence)` -/
def RevokedCertificate : Py.Obj :=
  Py.univ.Sequence.setComponentType (Py.NamedTypes [
    Py.NamedType "userCertificate" Rfc2459.CertificateSerialNumber.call,
    Py.NamedType "revocationDate" Rfc2459.Time.call,
    Py.OptionalNamedType "crlEntryExtensions" Rfc2459.Extensions.call])

/-- rfc2459.py:1269-1279 `class TBSCertList(univ.Sequence)` -/
def TBSCertList : Py.Obj :=
  Py.univ.Sequence.setComponentType (Py.NamedTypes [
    Py.OptionalNamedType "version" Rfc2459.Version.call,
    Py.NamedType "signature" Rfc2459.AlgorithmIdentifier.call,
    Py.NamedType "issuer" Rfc2459.Name.call,
    Py.NamedType "thisUpdate" Rfc2459.Time.call,
    Py.OptionalNamedType "nextUpdate" Rfc2459.Time.call,
    Py.OptionalNamedType "revokedCertificates" (Py.univ.SequenceOf.call.setComponentTypeOf Rfc2459.RevokedCertificate.call),
    Py.OptionalNamedType "crlExtensions" (Rfc2459.Extensions.call.explicitTag (Py.Tag .context true 0))])

/-- rfc2459.py:1282-1287 `class CertificateList(univ.Sequence)` -/
def CertificateList : Py.Obj :=
  Py.univ.Sequence.setComponentType (Py.NamedTypes [
    Py.NamedType "tbsCertList" Rfc2459.TBSCertList.call,
    Py.NamedType "signatureAlgorithm" Rfc2459.AlgorithmIdentifier.call,
    Py.NamedType "signature" Py.univ.BitString.call])

/-- rfc2459.py:1291-1306 -/
def _certificateAttributesMapUpdate : Py.Entries :=
  [(Rfc2459.id_at_name.value, Rfc2459.X520name.call.ty),
    (Rfc2459.id_at_surname.value, Rfc2459.X520name.call.ty),
    (Rfc2459.id_at_givenName.value, Rfc2459.X520name.call.ty),
    (Rfc2459.id_at_initials.value, Rfc2459.X520name.call.ty),
    (Rfc2459.id_at_generationQualifier.value, Rfc2459.X520name.call.ty),
    (Rfc2459.id_at_commonName.value, Rfc2459.X520CommonName.call.ty),
    (Rfc2459.id_at_localityName.value, Rfc2459.X520LocalityName.call.ty),
    (Rfc2459.id_at_stateOrProvinceName.value, Rfc2459.X520StateOrProvinceName.call.ty),
    (Rfc2459.id_at_organizationName.value, Rfc2459.X520OrganizationName.call.ty),
    (Rfc2459.id_at_organizationalUnitName.value, Rfc2459.X520OrganizationalUnitName.call.ty),
    (Rfc2459.id_at_title.value, Rfc2459.X520Title.call.ty),
    (Rfc2459.id_at_dnQualifier.value, Rfc2459.X520dnQualifier.call.ty),
    (Rfc2459.id_at_countryName.value, Rfc2459.X520countryName.call.ty),
    (Rfc2459.emailAddress.value, Rfc2459.Pkcs9email.call.ty)]

/-- rfc2459.py:1313-1336 -/
def _certificateExtensionsMapUpdate : Py.Entries :=
  [(Rfc2459.id_ce_authorityKeyIdentifier.value, Rfc2459.AuthorityKeyIdentifier.call.ty),
    (Rfc2459.id_ce_subjectKeyIdentifier.value, Rfc2459.SubjectKeyIdentifier.call.ty),
    (Rfc2459.id_ce_keyUsage.value, Rfc2459.KeyUsage.call.ty),
    (Rfc2459.id_ce_privateKeyUsagePeriod.value, Rfc2459.PrivateKeyUsagePeriod.call.ty),
    (Rfc2459.id_ce_certificatePolicies.value, Rfc2459.CertificatePolicies.call.ty),
    (Rfc2459.id_ce_policyMappings.value, Rfc2459.PolicyMappings.call.ty),
    (Rfc2459.id_ce_subjectAltName.value, Rfc2459.SubjectAltName.call.ty),
    (Rfc2459.id_ce_issuerAltName.value, Rfc2459.IssuerAltName.call.ty),
    (Rfc2459.id_ce_subjectDirectoryAttributes.value, Rfc2459.SubjectDirectoryAttributes.call.ty),
    (Rfc2459.id_ce_basicConstraints.value, Rfc2459.BasicConstraints.call.ty),
    (Rfc2459.id_ce_nameConstraints.value, Rfc2459.NameConstraints.call.ty),
    (Rfc2459.id_ce_policyConstraints.value, Rfc2459.PolicyConstraints.call.ty),
    (Rfc2459.id_ce_extKeyUsage.value, Rfc2459.ExtKeyUsageSyntax.call.ty),
    (Rfc2459.id_ce_cRLDistributionPoints.value, Rfc2459.CRLDistPointsSyntax.call.ty),
    (Rfc2459.id_pe_authorityInfoAccess.value, Rfc2459.AuthorityInfoAccessSyntax.call.ty),
    (Rfc2459.id_ce_cRLNumber.value, Py.univ.Integer.call.ty),
    (Rfc2459.id_ce_deltaCRLIndicator.value, Rfc2459.BaseCRLNumber.call.ty),
    (Rfc2459.id_ce_issuingDistributionPoint.value, Rfc2459.IssuingDistributionPoint.call.ty),
    (Rfc2459.id_ce_cRLReasons.value, Rfc2459.CRLReason.call.ty),
    (Rfc2459.id_ce_holdInstructionCode.value, Py.univ.ObjectIdentifier.call.ty),
    (Rfc2459.id_ce_invalidityDate.value, Py.useful.GeneralizedTime.call.ty),
    (Rfc2459.id_ce_certificateIssuer.value, Rfc2459.GeneralNames.call.ty)]

/-- Modules of this package imported by rfc2459.py, in textual order. -/
def imports : List Py.Ident :=
  []

/-- Dictionary operations executed when rfc2459.py is imported, in program order. -/
def effects : List Py.Effect :=
  [.create (Py.map 0 "rfc2459.certificateAttributesMap") Rfc2459.certificateAttributesMap /- rfc2459.py:1010 -/,
   .create (Py.map 1 "rfc2459.certificateExtensionsMap") Rfc2459.certificateExtensionsMap /- rfc2459.py:1185 -/,
   .create (Py.map 29 "rfc2459._certificateAttributesMapUpdate") Rfc2459._certificateAttributesMapUpdate /- rfc2459.py:1291-1306 -/,
   .update (Py.map 0 "rfc2459.certificateAttributesMap") Rfc2459._certificateAttributesMapUpdate /- rfc2459.py:1308 -/,
   .create (Py.map 30 "rfc2459._certificateExtensionsMapUpdate") Rfc2459._certificateExtensionsMapUpdate /- rfc2459.py:1313-1336 -/,
   .update (Py.map 1 "rfc2459.certificateExtensionsMap") Rfc2459._certificateExtensionsMapUpdate /- rfc2459.py:1338 -/]

/-- ASN.1 types rfc2459.py binds at module level (final version of each name), plus nested classes. -/
def classes : List (String × Py.Obj) :=
  [("rfc2459.UniversalString", Rfc2459.UniversalString),
   ("rfc2459.BMPString", Rfc2459.BMPString),
   ("rfc2459.UTF8String", Rfc2459.UTF8String),
   ("rfc2459.X520name", Rfc2459.X520name),
   ("rfc2459.X520CommonName", Rfc2459.X520CommonName),
   ("rfc2459.X520LocalityName", Rfc2459.X520LocalityName),
   ("rfc2459.X520StateOrProvinceName", Rfc2459.X520StateOrProvinceName),
   ("rfc2459.X520OrganizationName", Rfc2459.X520OrganizationName),
   ("rfc2459.X520OrganizationalUnitName", Rfc2459.X520OrganizationalUnitName),
   ("rfc2459.X520Title", Rfc2459.X520Title),
   ("rfc2459.X520dnQualifier", Rfc2459.X520dnQualifier),
   ("rfc2459.X520countryName", Rfc2459.X520countryName),
   ("rfc2459.Pkcs9email", Rfc2459.Pkcs9email),
   ("rfc2459.DSAPrivateKey", Rfc2459.DSAPrivateKey),
   ("rfc2459.DirectoryString", Rfc2459.DirectoryString),
   ("rfc2459.AlgorithmIdentifier", Rfc2459.AlgorithmIdentifier),
   ("rfc2459.Dss_Sig_Value", Rfc2459.Dss_Sig_Value),
   ("rfc2459.ValidationParms", Rfc2459.ValidationParms),
   ("rfc2459.DomainParameters", Rfc2459.DomainParameters),
   ("rfc2459.Dss_Parms", Rfc2459.Dss_Parms),
   ("rfc2459.TeletexDomainDefinedAttribute", Rfc2459.TeletexDomainDefinedAttribute),
   ("rfc2459.TeletexDomainDefinedAttributes", Rfc2459.TeletexDomainDefinedAttributes),
   ("rfc2459.TerminalType", Rfc2459.TerminalType),
   ("rfc2459.PresentationAddress", Rfc2459.PresentationAddress),
   ("rfc2459.E163_4_address", Rfc2459.E163_4_address),
   ("rfc2459.ExtendedNetworkAddress", Rfc2459.ExtendedNetworkAddress),
   ("rfc2459.PDSParameter", Rfc2459.PDSParameter),
   ("rfc2459.LocalPostalAttributes", Rfc2459.LocalPostalAttributes),
   ("rfc2459.UniquePostalName", Rfc2459.UniquePostalName),
   ("rfc2459.PosteRestanteAddress", Rfc2459.PosteRestanteAddress),
   ("rfc2459.PostOfficeBoxAddress", Rfc2459.PostOfficeBoxAddress),
   ("rfc2459.StreetAddress", Rfc2459.StreetAddress),
   ("rfc2459.UnformattedPostalAddress", Rfc2459.UnformattedPostalAddress),
   ("rfc2459.PhysicalDeliveryOfficeName", Rfc2459.PhysicalDeliveryOfficeName),
   ("rfc2459.PhysicalDeliveryOfficeNumber", Rfc2459.PhysicalDeliveryOfficeNumber),
   ("rfc2459.ExtensionORAddressComponents", Rfc2459.ExtensionORAddressComponents),
   ("rfc2459.PhysicalDeliveryPersonalName", Rfc2459.PhysicalDeliveryPersonalName),
   ("rfc2459.PhysicalDeliveryOrganizationName", Rfc2459.PhysicalDeliveryOrganizationName),
   ("rfc2459.ExtensionPhysicalDeliveryAddressComponents", Rfc2459.ExtensionPhysicalDeliveryAddressComponents),
   ("rfc2459.PostalCode", Rfc2459.PostalCode),
   ("rfc2459.PhysicalDeliveryCountryName", Rfc2459.PhysicalDeliveryCountryName),
   ("rfc2459.PDSName", Rfc2459.PDSName),
   ("rfc2459.TeletexOrganizationalUnitName", Rfc2459.TeletexOrganizationalUnitName),
   ("rfc2459.TeletexOrganizationalUnitNames", Rfc2459.TeletexOrganizationalUnitNames),
   ("rfc2459.TeletexPersonalName", Rfc2459.TeletexPersonalName),
   ("rfc2459.TeletexOrganizationName", Rfc2459.TeletexOrganizationName),
   ("rfc2459.TeletexCommonName", Rfc2459.TeletexCommonName),
   ("rfc2459.CommonName", Rfc2459.CommonName),
   ("rfc2459.ExtensionAttribute", Rfc2459.ExtensionAttribute),
   ("rfc2459.ExtensionAttributes", Rfc2459.ExtensionAttributes),
   ("rfc2459.BuiltInDomainDefinedAttribute", Rfc2459.BuiltInDomainDefinedAttribute),
   ("rfc2459.BuiltInDomainDefinedAttributes", Rfc2459.BuiltInDomainDefinedAttributes),
   ("rfc2459.OrganizationalUnitName", Rfc2459.OrganizationalUnitName),
   ("rfc2459.OrganizationalUnitNames", Rfc2459.OrganizationalUnitNames),
   ("rfc2459.PersonalName", Rfc2459.PersonalName),
   ("rfc2459.NumericUserIdentifier", Rfc2459.NumericUserIdentifier),
   ("rfc2459.OrganizationName", Rfc2459.OrganizationName),
   ("rfc2459.PrivateDomainName", Rfc2459.PrivateDomainName),
   ("rfc2459.TerminalIdentifier", Rfc2459.TerminalIdentifier),
   ("rfc2459.X121Address", Rfc2459.X121Address),
   ("rfc2459.NetworkAddress", Rfc2459.NetworkAddress),
   ("rfc2459.AdministrationDomainName", Rfc2459.AdministrationDomainName),
   ("rfc2459.CountryName", Rfc2459.CountryName),
   ("rfc2459.BuiltInStandardAttributes", Rfc2459.BuiltInStandardAttributes),
   ("rfc2459.ORAddress", Rfc2459.ORAddress),
   ("rfc2459.InvalidityDate", Rfc2459.InvalidityDate),
   ("rfc2459.HoldInstructionCode", Rfc2459.HoldInstructionCode),
   ("rfc2459.CRLReason", Rfc2459.CRLReason),
   ("rfc2459.CRLNumber", Rfc2459.CRLNumber),
   ("rfc2459.BaseCRLNumber", Rfc2459.BaseCRLNumber),
   ("rfc2459.KeyPurposeId", Rfc2459.KeyPurposeId),
   ("rfc2459.ExtKeyUsageSyntax", Rfc2459.ExtKeyUsageSyntax),
   ("rfc2459.ReasonFlags", Rfc2459.ReasonFlags),
   ("rfc2459.SkipCerts", Rfc2459.SkipCerts),
   ("rfc2459.PolicyConstraints", Rfc2459.PolicyConstraints),
   ("rfc2459.BasicConstraints", Rfc2459.BasicConstraints),
   ("rfc2459.EDIPartyName", Rfc2459.EDIPartyName),
   ("rfc2459.BaseDistance", Rfc2459.BaseDistance),
   ("rfc2459.DisplayText", Rfc2459.DisplayText),
   ("rfc2459.NoticeReference", Rfc2459.NoticeReference),
   ("rfc2459.UserNotice", Rfc2459.UserNotice),
   ("rfc2459.CPSuri", Rfc2459.CPSuri),
   ("rfc2459.PolicyQualifierId", Rfc2459.PolicyQualifierId),
   ("rfc2459.CertPolicyId", Rfc2459.CertPolicyId),
   ("rfc2459.PolicyQualifierInfo", Rfc2459.PolicyQualifierInfo),
   ("rfc2459.PolicyInformation", Rfc2459.PolicyInformation),
   ("rfc2459.CertificatePolicies", Rfc2459.CertificatePolicies),
   ("rfc2459.PolicyMapping", Rfc2459.PolicyMapping),
   ("rfc2459.PolicyMappings", Rfc2459.PolicyMappings),
   ("rfc2459.PrivateKeyUsagePeriod", Rfc2459.PrivateKeyUsagePeriod),
   ("rfc2459.KeyUsage", Rfc2459.KeyUsage),
   ("rfc2459.KeyIdentifier", Rfc2459.KeyIdentifier),
   ("rfc2459.SubjectKeyIdentifier", Rfc2459.SubjectKeyIdentifier),
   ("rfc2459.AttributeValue", Rfc2459.AttributeValue),
   ("rfc2459.AttributeType", Rfc2459.AttributeType),
   ("rfc2459.AttributeTypeAndValue", Rfc2459.AttributeTypeAndValue),
   ("rfc2459.Attribute", Rfc2459.Attribute),
   ("rfc2459.SubjectDirectoryAttributes", Rfc2459.SubjectDirectoryAttributes),
   ("rfc2459.RelativeDistinguishedName", Rfc2459.RelativeDistinguishedName),
   ("rfc2459.RDNSequence", Rfc2459.RDNSequence),
   ("rfc2459.Name", Rfc2459.Name),
   ("rfc2459.CertificateSerialNumber", Rfc2459.CertificateSerialNumber),
   ("rfc2459.AnotherName", Rfc2459.AnotherName),
   ("rfc2459.GeneralName", Rfc2459.GeneralName),
   ("rfc2459.GeneralNames", Rfc2459.GeneralNames),
   ("rfc2459.AccessDescription", Rfc2459.AccessDescription),
   ("rfc2459.AuthorityInfoAccessSyntax", Rfc2459.AuthorityInfoAccessSyntax),
   ("rfc2459.AuthorityKeyIdentifier", Rfc2459.AuthorityKeyIdentifier),
   ("rfc2459.DistributionPointName", Rfc2459.DistributionPointName),
   ("rfc2459.DistributionPoint", Rfc2459.DistributionPoint),
   ("rfc2459.CRLDistPointsSyntax", Rfc2459.CRLDistPointsSyntax),
   ("rfc2459.IssuingDistributionPoint", Rfc2459.IssuingDistributionPoint),
   ("rfc2459.GeneralSubtree", Rfc2459.GeneralSubtree),
   ("rfc2459.GeneralSubtrees", Rfc2459.GeneralSubtrees),
   ("rfc2459.NameConstraints", Rfc2459.NameConstraints),
   ("rfc2459.CertificateIssuer", Rfc2459.CertificateIssuer),
   ("rfc2459.SubjectAltName", Rfc2459.SubjectAltName),
   ("rfc2459.IssuerAltName", Rfc2459.IssuerAltName),
   ("rfc2459.Extension", Rfc2459.Extension),
   ("rfc2459.Extensions", Rfc2459.Extensions),
   ("rfc2459.SubjectPublicKeyInfo", Rfc2459.SubjectPublicKeyInfo),
   ("rfc2459.UniqueIdentifier", Rfc2459.UniqueIdentifier),
   ("rfc2459.Time", Rfc2459.Time),
   ("rfc2459.Validity", Rfc2459.Validity),
   ("rfc2459.Version", Rfc2459.Version),
   ("rfc2459.TBSCertificate", Rfc2459.TBSCertificate),
   ("rfc2459.Certificate", Rfc2459.Certificate),
   ("rfc2459.RevokedCertificate", Rfc2459.RevokedCertificate),
   ("rfc2459.TBSCertList", Rfc2459.TBSCertList),
   ("rfc2459.CertificateList", Rfc2459.CertificateList)]

/-- pyasn1 instances rfc2459.py binds at module level. -/
def objects : List (String × Py.Obj) :=
  [("rfc2459.ub_name", Rfc2459.ub_name),
   ("rfc2459.ub_common_name", Rfc2459.ub_common_name),
   ("rfc2459.ub_locality_name", Rfc2459.ub_locality_name),
   ("rfc2459.ub_state_name", Rfc2459.ub_state_name),
   ("rfc2459.ub_organization_name", Rfc2459.ub_organization_name),
   ("rfc2459.ub_organizational_unit_name", Rfc2459.ub_organizational_unit_name),
   ("rfc2459.ub_title", Rfc2459.ub_title),
   ("rfc2459.ub_match", Rfc2459.ub_match),
   ("rfc2459.ub_emailaddress_length", Rfc2459.ub_emailaddress_length),
   ("rfc2459.ub_common_name_length", Rfc2459.ub_common_name_length),
   ("rfc2459.ub_country_name_alpha_length", Rfc2459.ub_country_name_alpha_length),
   ("rfc2459.ub_country_name_numeric_length", Rfc2459.ub_country_name_numeric_length),
   ("rfc2459.ub_domain_defined_attributes", Rfc2459.ub_domain_defined_attributes),
   ("rfc2459.ub_domain_defined_attribute_type_length", Rfc2459.ub_domain_defined_attribute_type_length),
   ("rfc2459.ub_domain_defined_attribute_value_length", Rfc2459.ub_domain_defined_attribute_value_length),
   ("rfc2459.ub_domain_name_length", Rfc2459.ub_domain_name_length),
   ("rfc2459.ub_extension_attributes", Rfc2459.ub_extension_attributes),
   ("rfc2459.ub_e163_4_number_length", Rfc2459.ub_e163_4_number_length),
   ("rfc2459.ub_e163_4_sub_address_length", Rfc2459.ub_e163_4_sub_address_length),
   ("rfc2459.ub_generation_qualifier_length", Rfc2459.ub_generation_qualifier_length),
   ("rfc2459.ub_given_name_length", Rfc2459.ub_given_name_length),
   ("rfc2459.ub_initials_length", Rfc2459.ub_initials_length),
   ("rfc2459.ub_integer_options", Rfc2459.ub_integer_options),
   ("rfc2459.ub_numeric_user_id_length", Rfc2459.ub_numeric_user_id_length),
   ("rfc2459.ub_organization_name_length", Rfc2459.ub_organization_name_length),
   ("rfc2459.ub_organizational_unit_name_length", Rfc2459.ub_organizational_unit_name_length),
   ("rfc2459.ub_organizational_units", Rfc2459.ub_organizational_units),
   ("rfc2459.ub_pds_name_length", Rfc2459.ub_pds_name_length),
   ("rfc2459.ub_pds_parameter_length", Rfc2459.ub_pds_parameter_length),
   ("rfc2459.ub_pds_physical_address_lines", Rfc2459.ub_pds_physical_address_lines),
   ("rfc2459.ub_postal_code_length", Rfc2459.ub_postal_code_length),
   ("rfc2459.ub_surname_length", Rfc2459.ub_surname_length),
   ("rfc2459.ub_terminal_id_length", Rfc2459.ub_terminal_id_length),
   ("rfc2459.ub_unformatted_address_length", Rfc2459.ub_unformatted_address_length),
   ("rfc2459.ub_x121_address_length", Rfc2459.ub_x121_address_length),
   ("rfc2459.id_pkix", Rfc2459.id_pkix),
   ("rfc2459.id_pe", Rfc2459.id_pe),
   ("rfc2459.id_qt", Rfc2459.id_qt),
   ("rfc2459.id_kp", Rfc2459.id_kp),
   ("rfc2459.id_ad", Rfc2459.id_ad),
   ("rfc2459.id_qt_cps", Rfc2459.id_qt_cps),
   ("rfc2459.id_qt_unotice", Rfc2459.id_qt_unotice),
   ("rfc2459.id_ad_ocsp", Rfc2459.id_ad_ocsp),
   ("rfc2459.id_ad_caIssuers", Rfc2459.id_ad_caIssuers),
   ("rfc2459.id_at", Rfc2459.id_at),
   ("rfc2459.id_at_name", Rfc2459.id_at_name),
   ("rfc2459.id_at_sutname", Rfc2459.id_at_sutname),
   ("rfc2459.id_at_surname", Rfc2459.id_at_surname),
   ("rfc2459.id_at_givenName", Rfc2459.id_at_givenName),
   ("rfc2459.id_at_initials", Rfc2459.id_at_initials),
   ("rfc2459.id_at_generationQualifier", Rfc2459.id_at_generationQualifier),
   ("rfc2459.id_at_commonName", Rfc2459.id_at_commonName),
   ("rfc2459.id_at_localityName", Rfc2459.id_at_localityName),
   ("rfc2459.id_at_stateOrProvinceName", Rfc2459.id_at_stateOrProvinceName),
   ("rfc2459.id_at_organizationName", Rfc2459.id_at_organizationName),
   ("rfc2459.id_at_organizationalUnitName", Rfc2459.id_at_organizationalUnitName),
   ("rfc2459.id_at_title", Rfc2459.id_at_title),
   ("rfc2459.id_at_dnQualifier", Rfc2459.id_at_dnQualifier),
   ("rfc2459.id_at_countryName", Rfc2459.id_at_countryName),
   ("rfc2459.pkcs_9", Rfc2459.pkcs_9),
   ("rfc2459.emailAddress", Rfc2459.emailAddress),
   ("rfc2459.pkcs_1", Rfc2459.pkcs_1),
   ("rfc2459.rsaEncryption", Rfc2459.rsaEncryption),
   ("rfc2459.md2WithRSAEncryption", Rfc2459.md2WithRSAEncryption),
   ("rfc2459.md5WithRSAEncryption", Rfc2459.md5WithRSAEncryption),
   ("rfc2459.sha1WithRSAEncryption", Rfc2459.sha1WithRSAEncryption),
   ("rfc2459.id_dsa_with_sha1", Rfc2459.id_dsa_with_sha1),
   ("rfc2459.dhpublicnumber", Rfc2459.dhpublicnumber),
   ("rfc2459.id_dsa", Rfc2459.id_dsa),
   ("rfc2459.teletex_domain_defined_attributes", Rfc2459.teletex_domain_defined_attributes),
   ("rfc2459.terminal_type", Rfc2459.terminal_type),
   ("rfc2459.extended_network_address", Rfc2459.extended_network_address),
   ("rfc2459.local_postal_attributes", Rfc2459.local_postal_attributes),
   ("rfc2459.unique_postal_name", Rfc2459.unique_postal_name),
   ("rfc2459.poste_restante_address", Rfc2459.poste_restante_address),
   ("rfc2459.post_office_box_address", Rfc2459.post_office_box_address),
   ("rfc2459.street_address", Rfc2459.street_address),
   ("rfc2459.physical_delivery_office_name", Rfc2459.physical_delivery_office_name),
   ("rfc2459.physical_delivery_office_number", Rfc2459.physical_delivery_office_number),
   ("rfc2459.extension_OR_address_components", Rfc2459.extension_OR_address_components),
   ("rfc2459.physical_delivery_personal_name", Rfc2459.physical_delivery_personal_name),
   ("rfc2459.physical_delivery_organization_name", Rfc2459.physical_delivery_organization_name),
   ("rfc2459.extension_physical_delivery_address_components", Rfc2459.extension_physical_delivery_address_components),
   ("rfc2459.unformatted_postal_address", Rfc2459.unformatted_postal_address),
   ("rfc2459.postal_code", Rfc2459.postal_code),
   ("rfc2459.physical_delivery_country_name", Rfc2459.physical_delivery_country_name),
   ("rfc2459.pds_name", Rfc2459.pds_name),
   ("rfc2459.teletex_organizational_unit_names", Rfc2459.teletex_organizational_unit_names),
   ("rfc2459.teletex_personal_name", Rfc2459.teletex_personal_name),
   ("rfc2459.teletex_organization_name", Rfc2459.teletex_organization_name),
   ("rfc2459.teletex_common_name", Rfc2459.teletex_common_name),
   ("rfc2459.common_name", Rfc2459.common_name),
   ("rfc2459.id_ce_invalidityDate", Rfc2459.id_ce_invalidityDate),
   ("rfc2459.id_holdinstruction_none", Rfc2459.id_holdinstruction_none),
   ("rfc2459.id_holdinstruction_callissuer", Rfc2459.id_holdinstruction_callissuer),
   ("rfc2459.id_holdinstruction_reject", Rfc2459.id_holdinstruction_reject),
   ("rfc2459.holdInstruction", Rfc2459.holdInstruction),
   ("rfc2459.id_ce_holdInstructionCode", Rfc2459.id_ce_holdInstructionCode),
   ("rfc2459.id_ce_cRLReasons", Rfc2459.id_ce_cRLReasons),
   ("rfc2459.id_ce_cRLNumber", Rfc2459.id_ce_cRLNumber),
   ("rfc2459.id_kp_serverAuth", Rfc2459.id_kp_serverAuth),
   ("rfc2459.id_kp_clientAuth", Rfc2459.id_kp_clientAuth),
   ("rfc2459.id_kp_codeSigning", Rfc2459.id_kp_codeSigning),
   ("rfc2459.id_kp_emailProtection", Rfc2459.id_kp_emailProtection),
   ("rfc2459.id_kp_ipsecEndSystem", Rfc2459.id_kp_ipsecEndSystem),
   ("rfc2459.id_kp_ipsecTunnel", Rfc2459.id_kp_ipsecTunnel),
   ("rfc2459.id_kp_ipsecUser", Rfc2459.id_kp_ipsecUser),
   ("rfc2459.id_kp_timeStamping", Rfc2459.id_kp_timeStamping),
   ("rfc2459.id_pe_authorityInfoAccess", Rfc2459.id_pe_authorityInfoAccess),
   ("rfc2459.id_ce_extKeyUsage", Rfc2459.id_ce_extKeyUsage),
   ("rfc2459.id_ce_policyConstraints", Rfc2459.id_ce_policyConstraints),
   ("rfc2459.id_ce_basicConstraints", Rfc2459.id_ce_basicConstraints),
   ("rfc2459.id_ce_subjectDirectoryAttributes", Rfc2459.id_ce_subjectDirectoryAttributes),
   ("rfc2459.id_ce_deltaCRLIndicator", Rfc2459.id_ce_deltaCRLIndicator),
   ("rfc2459.id_ce_cRLDistributionPoints", Rfc2459.id_ce_cRLDistributionPoints),
   ("rfc2459.id_ce_issuingDistributionPoint", Rfc2459.id_ce_issuingDistributionPoint),
   ("rfc2459.id_ce_nameConstraints", Rfc2459.id_ce_nameConstraints),
   ("rfc2459.id_ce_certificatePolicies", Rfc2459.id_ce_certificatePolicies),
   ("rfc2459.id_ce_policyMappings", Rfc2459.id_ce_policyMappings),
   ("rfc2459.id_ce_privateKeyUsagePeriod", Rfc2459.id_ce_privateKeyUsagePeriod),
   ("rfc2459.id_ce_keyUsage", Rfc2459.id_ce_keyUsage),
   ("rfc2459.id_ce", Rfc2459.id_ce),
   ("rfc2459.id_ce_authorityKeyIdentifier", Rfc2459.id_ce_authorityKeyIdentifier),
   ("rfc2459.id_ce_subjectKeyIdentifier", Rfc2459.id_ce_subjectKeyIdentifier),
   ("rfc2459.id_ce_certificateIssuer", Rfc2459.id_ce_certificateIssuer),
   ("rfc2459.id_ce_subjectAltName", Rfc2459.id_ce_subjectAltName),
   ("rfc2459.id_ce_issuerAltName", Rfc2459.id_ce_issuerAltName)]

/-- pyasn1 instances rfc2459.py fills in by item assignment. -/
def protos : List (String × Py.Proto) :=
  []

/-- Every place of rfc2459.py that instantiates a class of the package: where, the class as it is
at that point, and the class as it is when the import has finished. -/
def snapshots : List Py.Snapshot :=
  [⟨"rfc2459.py:330", Rfc2459.ValidationParms, Rfc2459.ValidationParms⟩,
   ⟨"rfc2459.py:359", Rfc2459.TeletexDomainDefinedAttribute, Rfc2459.TeletexDomainDefinedAttribute⟩,
   ⟨"rfc2459.py:408", Rfc2459.E163_4_address, Rfc2459.E163_4_address⟩,
   ⟨"rfc2459.py:409", Rfc2459.PresentationAddress, Rfc2459.PresentationAddress⟩,
   ⟨"rfc2459.py:550", Rfc2459.TeletexOrganizationalUnitName, Rfc2459.TeletexOrganizationalUnitName⟩,
   ⟨"rfc2459.py:606", Rfc2459.ExtensionAttribute, Rfc2459.ExtensionAttribute⟩,
   ⟨"rfc2459.py:620", Rfc2459.BuiltInDomainDefinedAttribute, Rfc2459.BuiltInDomainDefinedAttribute⟩,
   ⟨"rfc2459.py:629", Rfc2459.OrganizationalUnitName, Rfc2459.OrganizationalUnitName⟩,
   ⟨"rfc2459.py:706", Rfc2459.CountryName, Rfc2459.CountryName⟩,
   ⟨"rfc2459.py:707", Rfc2459.AdministrationDomainName, Rfc2459.AdministrationDomainName⟩,
   ⟨"rfc2459.py:708", Rfc2459.NetworkAddress, Rfc2459.NetworkAddress⟩,
   ⟨"rfc2459.py:710", Rfc2459.TerminalIdentifier, Rfc2459.TerminalIdentifier⟩,
   ⟨"rfc2459.py:712", Rfc2459.PrivateDomainName, Rfc2459.PrivateDomainName⟩,
   ⟨"rfc2459.py:714", Rfc2459.OrganizationName, Rfc2459.OrganizationName⟩,
   ⟨"rfc2459.py:716", Rfc2459.NumericUserIdentifier, Rfc2459.NumericUserIdentifier⟩,
   ⟨"rfc2459.py:718", Rfc2459.PersonalName, Rfc2459.PersonalName⟩,
   ⟨"rfc2459.py:720", Rfc2459.OrganizationalUnitNames, Rfc2459.OrganizationalUnitNames⟩,
   ⟨"rfc2459.py:727", Rfc2459.BuiltInStandardAttributes, Rfc2459.BuiltInStandardAttributes⟩,
   ⟨"rfc2459.py:728", Rfc2459.BuiltInDomainDefinedAttributes, Rfc2459.BuiltInDomainDefinedAttributes⟩,
   ⟨"rfc2459.py:729", Rfc2459.ExtensionAttributes, Rfc2459.ExtensionAttributes⟩,
   ⟨"rfc2459.py:801", Rfc2459.KeyPurposeId, Rfc2459.KeyPurposeId⟩,
   ⟨"rfc2459.py:826", Rfc2459.SkipCerts, Rfc2459.SkipCerts⟩,
   ⟨"rfc2459.py:828", Rfc2459.SkipCerts, Rfc2459.SkipCerts⟩,
   ⟨"rfc2459.py:849", Rfc2459.DirectoryString, Rfc2459.DirectoryString⟩,
   ⟨"rfc2459.py:852", Rfc2459.DirectoryString, Rfc2459.DirectoryString⟩,
   ⟨"rfc2459.py:887", Rfc2459.DisplayText, Rfc2459.DisplayText⟩,
   ⟨"rfc2459.py:894", Rfc2459.NoticeReference, Rfc2459.NoticeReference⟩,
   ⟨"rfc2459.py:895", Rfc2459.DisplayText, Rfc2459.DisplayText⟩,
   ⟨"rfc2459.py:913", Rfc2459.PolicyQualifierId, Rfc2459.PolicyQualifierId⟩,
   ⟨"rfc2459.py:923", Rfc2459.CertPolicyId, Rfc2459.CertPolicyId⟩,
   ⟨"rfc2459.py:924", Rfc2459.PolicyQualifierInfo, Rfc2459.PolicyQualifierInfo⟩,
   ⟨"rfc2459.py:930", Rfc2459.PolicyInformation, Rfc2459.PolicyInformation⟩,
   ⟨"rfc2459.py:939", Rfc2459.CertPolicyId, Rfc2459.CertPolicyId⟩,
   ⟨"rfc2459.py:940", Rfc2459.CertPolicyId, Rfc2459.CertPolicyId⟩,
   ⟨"rfc2459.py:945", Rfc2459.PolicyMapping, Rfc2459.PolicyMapping⟩,
   ⟨"rfc2459.py:1015", Rfc2459.AttributeType, Rfc2459.AttributeType⟩,
   ⟨"rfc2459.py:1016", Rfc2459.AttributeValue, Rfc2459.AttributeValue⟩,
   ⟨"rfc2459.py:1023", Rfc2459.AttributeType, Rfc2459.AttributeType⟩,
   ⟨"rfc2459.py:1024", Rfc2459.AttributeValue, Rfc2459.AttributeValue⟩,
   ⟨"rfc2459.py:1029", Rfc2459.Attribute, Rfc2459.Attribute⟩,
   ⟨"rfc2459.py:1034", Rfc2459.AttributeTypeAndValue, Rfc2459.AttributeTypeAndValue⟩,
   ⟨"rfc2459.py:1038", Rfc2459.RelativeDistinguishedName, Rfc2459.RelativeDistinguishedName⟩,
   ⟨"rfc2459.py:1043", Rfc2459.RDNSequence, Rfc2459.RDNSequence⟩,
   ⟨"rfc2459.py:1061", Rfc2459.AnotherName, Rfc2459.AnotherName⟩,
   ⟨"rfc2459.py:1067", Rfc2459.ORAddress, Rfc2459.ORAddress⟩,
   ⟨"rfc2459.py:1069", Rfc2459.Name, Rfc2459.Name⟩,
   ⟨"rfc2459.py:1071", Rfc2459.EDIPartyName, Rfc2459.EDIPartyName⟩,
   ⟨"rfc2459.py:1082", Rfc2459.GeneralName, Rfc2459.GeneralName⟩,
   ⟨"rfc2459.py:1089", Rfc2459.GeneralName, Rfc2459.GeneralName⟩,
   ⟨"rfc2459.py:1094", Rfc2459.AccessDescription, Rfc2459.AccessDescription⟩,
   ⟨"rfc2459.py:1100", Rfc2459.KeyIdentifier, Rfc2459.KeyIdentifier⟩,
   ⟨"rfc2459.py:1102", Rfc2459.GeneralNames, Rfc2459.GeneralNames⟩,
   ⟨"rfc2459.py:1104", Rfc2459.CertificateSerialNumber, Rfc2459.CertificateSerialNumber⟩,
   ⟨"rfc2459.py:1111", Rfc2459.GeneralNames, Rfc2459.GeneralNames⟩,
   ⟨"rfc2459.py:1113", Rfc2459.RelativeDistinguishedName, Rfc2459.RelativeDistinguishedName⟩,
   ⟨"rfc2459.py:1120", Rfc2459.DistributionPointName, Rfc2459.DistributionPointName⟩,
   ⟨"rfc2459.py:1122", Rfc2459.ReasonFlags, Rfc2459.ReasonFlags⟩,
   ⟨"rfc2459.py:1124", Rfc2459.GeneralNames, Rfc2459.GeneralNames⟩,
   ⟨"rfc2459.py:1130", Rfc2459.DistributionPoint, Rfc2459.DistributionPoint⟩,
   ⟨"rfc2459.py:1136", Rfc2459.DistributionPointName, Rfc2459.DistributionPointName⟩,
   ⟨"rfc2459.py:1142", Rfc2459.ReasonFlags, Rfc2459.ReasonFlags⟩,
   ⟨"rfc2459.py:1151", Rfc2459.GeneralName, Rfc2459.GeneralName⟩,
   ⟨"rfc2459.py:1152", Rfc2459.BaseDistance, Rfc2459.BaseDistance⟩,
   ⟨"rfc2459.py:1154", Rfc2459.BaseDistance, Rfc2459.BaseDistance⟩,
   ⟨"rfc2459.py:1160", Rfc2459.GeneralSubtree, Rfc2459.GeneralSubtree⟩,
   ⟨"rfc2459.py:1166", Rfc2459.GeneralSubtrees, Rfc2459.GeneralSubtrees⟩,
   ⟨"rfc2459.py:1168", Rfc2459.GeneralSubtrees, Rfc2459.GeneralSubtrees⟩,
   ⟨"rfc2459.py:1198", Rfc2459.Extension, Rfc2459.Extension⟩,
   ⟨"rfc2459.py:1204", Rfc2459.AlgorithmIdentifier, Rfc2459.AlgorithmIdentifier⟩,
   ⟨"rfc2459.py:1222", Rfc2459.Time, Rfc2459.Time⟩,
   ⟨"rfc2459.py:1223", Rfc2459.Time, Rfc2459.Time⟩,
   ⟨"rfc2459.py:1235", Rfc2459.Version, Rfc2459.Version⟩,
   ⟨"rfc2459.py:1237", Rfc2459.CertificateSerialNumber, Rfc2459.CertificateSerialNumber⟩,
   ⟨"rfc2459.py:1238", Rfc2459.AlgorithmIdentifier, Rfc2459.AlgorithmIdentifier⟩,
   ⟨"rfc2459.py:1239", Rfc2459.Name, Rfc2459.Name⟩,
   ⟨"rfc2459.py:1240", Rfc2459.Validity, Rfc2459.Validity⟩,
   ⟨"rfc2459.py:1241", Rfc2459.Name, Rfc2459.Name⟩,
   ⟨"rfc2459.py:1242", Rfc2459.SubjectPublicKeyInfo, Rfc2459.SubjectPublicKeyInfo⟩,
   ⟨"rfc2459.py:1243", Rfc2459.UniqueIdentifier, Rfc2459.UniqueIdentifier⟩,
   ⟨"rfc2459.py:1245", Rfc2459.UniqueIdentifier, Rfc2459.UniqueIdentifier⟩,
   ⟨"rfc2459.py:1247", Rfc2459.Extensions, Rfc2459.Extensions⟩,
   ⟨"rfc2459.py:1254", Rfc2459.TBSCertificate, Rfc2459.TBSCertificate⟩,
   ⟨"rfc2459.py:1255", Rfc2459.AlgorithmIdentifier, Rfc2459.AlgorithmIdentifier⟩,
   ⟨"rfc2459.py:1263", Rfc2459.CertificateSerialNumber, Rfc2459.CertificateSerialNumber⟩,
   ⟨"rfc2459.py:1264", Rfc2459.Time, Rfc2459.Time⟩,
   ⟨"rfc2459.py:1265", Rfc2459.Extensions, Rfc2459.Extensions⟩,
   ⟨"rfc2459.py:1271", Rfc2459.Version, Rfc2459.Version⟩,
   ⟨"rfc2459.py:1272", Rfc2459.AlgorithmIdentifier, Rfc2459.AlgorithmIdentifier⟩,
   ⟨"rfc2459.py:1273", Rfc2459.Name, Rfc2459.Name⟩,
   ⟨"rfc2459.py:1274", Rfc2459.Time, Rfc2459.Time⟩,
   ⟨"rfc2459.py:1275", Rfc2459.Time, Rfc2459.Time⟩,
   ⟨"rfc2459.py:1276", Rfc2459.RevokedCertificate, Rfc2459.RevokedCertificate⟩,
   ⟨"rfc2459.py:1277", Rfc2459.Extensions, Rfc2459.Extensions⟩,
   ⟨"rfc2459.py:1284", Rfc2459.TBSCertList, Rfc2459.TBSCertList⟩,
   ⟨"rfc2459.py:1285", Rfc2459.AlgorithmIdentifier, Rfc2459.AlgorithmIdentifier⟩,
   ⟨"rfc2459.py:1292", Rfc2459.X520name, Rfc2459.X520name⟩,
   ⟨"rfc2459.py:1293", Rfc2459.X520name, Rfc2459.X520name⟩,
   ⟨"rfc2459.py:1294", Rfc2459.X520name, Rfc2459.X520name⟩,
   ⟨"rfc2459.py:1295", Rfc2459.X520name, Rfc2459.X520name⟩,
   ⟨"rfc2459.py:1296", Rfc2459.X520name, Rfc2459.X520name⟩,
   ⟨"rfc2459.py:1297", Rfc2459.X520CommonName, Rfc2459.X520CommonName⟩,
   ⟨"rfc2459.py:1298", Rfc2459.X520LocalityName, Rfc2459.X520LocalityName⟩,
   ⟨"rfc2459.py:1299", Rfc2459.X520StateOrProvinceName, Rfc2459.X520StateOrProvinceName⟩,
   ⟨"rfc2459.py:1300", Rfc2459.X520OrganizationName, Rfc2459.X520OrganizationName⟩,
   ⟨"rfc2459.py:1301", Rfc2459.X520OrganizationalUnitName, Rfc2459.X520OrganizationalUnitName⟩,
   ⟨"rfc2459.py:1302", Rfc2459.X520Title, Rfc2459.X520Title⟩,
   ⟨"rfc2459.py:1303", Rfc2459.X520dnQualifier, Rfc2459.X520dnQualifier⟩,
   ⟨"rfc2459.py:1304", Rfc2459.X520countryName, Rfc2459.X520countryName⟩,
   ⟨"rfc2459.py:1305", Rfc2459.Pkcs9email, Rfc2459.Pkcs9email⟩,
   ⟨"rfc2459.py:1314", Rfc2459.AuthorityKeyIdentifier, Rfc2459.AuthorityKeyIdentifier⟩,
   ⟨"rfc2459.py:1315", Rfc2459.SubjectKeyIdentifier, Rfc2459.SubjectKeyIdentifier⟩,
   ⟨"rfc2459.py:1316", Rfc2459.KeyUsage, Rfc2459.KeyUsage⟩,
   ⟨"rfc2459.py:1317", Rfc2459.PrivateKeyUsagePeriod, Rfc2459.PrivateKeyUsagePeriod⟩,
   ⟨"rfc2459.py:1318", Rfc2459.CertificatePolicies, Rfc2459.CertificatePolicies⟩,
   ⟨"rfc2459.py:1319", Rfc2459.PolicyMappings, Rfc2459.PolicyMappings⟩,
   ⟨"rfc2459.py:1320", Rfc2459.SubjectAltName, Rfc2459.SubjectAltName⟩,
   ⟨"rfc2459.py:1321", Rfc2459.IssuerAltName, Rfc2459.IssuerAltName⟩,
   ⟨"rfc2459.py:1322", Rfc2459.SubjectDirectoryAttributes, Rfc2459.SubjectDirectoryAttributes⟩,
   ⟨"rfc2459.py:1323", Rfc2459.BasicConstraints, Rfc2459.BasicConstraints⟩,
   ⟨"rfc2459.py:1324", Rfc2459.NameConstraints, Rfc2459.NameConstraints⟩,
   ⟨"rfc2459.py:1325", Rfc2459.PolicyConstraints, Rfc2459.PolicyConstraints⟩,
   ⟨"rfc2459.py:1326", Rfc2459.ExtKeyUsageSyntax, Rfc2459.ExtKeyUsageSyntax⟩,
   ⟨"rfc2459.py:1327", Rfc2459.CRLDistPointsSyntax, Rfc2459.CRLDistPointsSyntax⟩,
   ⟨"rfc2459.py:1328", Rfc2459.AuthorityInfoAccessSyntax, Rfc2459.AuthorityInfoAccessSyntax⟩,
   ⟨"rfc2459.py:1330", Rfc2459.BaseCRLNumber, Rfc2459.BaseCRLNumber⟩,
   ⟨"rfc2459.py:1331", Rfc2459.IssuingDistributionPoint, Rfc2459.IssuingDistributionPoint⟩,
   ⟨"rfc2459.py:1332", Rfc2459.CRLReason, Rfc2459.CRLReason⟩,
   ⟨"rfc2459.py:1335", Rfc2459.GeneralNames, Rfc2459.GeneralNames⟩]

/-- Functions rfc2459.py defines. -/
def builders : List (String × (List Py.OidArg → Py.Obj)) :=
  []

def asModule : Py.Module :=
  { id := (Py.mod 6 "rfc2459"), imports := imports, effects := effects, classes := classes, objects := objects, protos := protos, snapshots := snapshots, builders := builders }

end Rfc2459
end Verif
