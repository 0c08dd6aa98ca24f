import Verif.Asn1.Objects
import Verif.Std.Rfc3739

/-! The objects of rfc3739 (generated by tools/objgen.py from tools/std/objects.txt). -/

set_option maxRecDepth 100000

namespace Verif
namespace Std
namespace Rfc3739

open Asn1 Spec.X680

def objects : List Object :=
  [⟨.EXTENSION, .oid [1, 3, 6, 1, 5, 5, 7, 1, 2], BiometricSyntax, (some .same)⟩,
   ⟨.EXTENSION, .oid [1, 3, 6, 1, 5, 5, 7, 1, 3], QCStatements, (some .same)⟩,
   ⟨.ATTRIBUTE, .oid [1, 3, 6, 1, 5, 5, 7, 9, 1], DateOfBirth, (some .same)⟩,
   ⟨.ATTRIBUTE, .oid [1, 3, 6, 1, 5, 5, 7, 9, 2], PlaceOfBirth, (some .same)⟩,
   ⟨.ATTRIBUTE, .oid [1, 3, 6, 1, 5, 5, 7, 9, 3], Gender, (some .same)⟩,
   ⟨.ATTRIBUTE, .oid [1, 3, 6, 1, 5, 5, 7, 9, 4], CountryOfCitizenship, (some .same)⟩,
   ⟨.ATTRIBUTE, .oid [1, 3, 6, 1, 5, 5, 7, 9, 5], CountryOfResidence, (some .same)⟩,
   ⟨.QC_STATEMENT, .oid [1, 3, 6, 1, 5, 5, 7, 11, 1], SemanticsInformation, none⟩,
   ⟨.QC_STATEMENT, .oid [1, 3, 6, 1, 5, 5, 7, 11, 2], SemanticsInformation, none⟩]

def unlisted : List (ObjClass × Val) :=
  []

def registered : Objects := ⟨Verif.Rfc3739.asModule, objects, unlisted⟩

end Rfc3739
end Std
end Verif
