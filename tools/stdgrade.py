"""Find out how each class relates to the type of the standard, and write tools/std/grades.txt.

Runs a Lean program over the tables stdgen.py wrote (build them first).  Nothing here is trusted: the grades, and the
octets that tell a class from its standard, are checked by Verif/Props/Standard.lean.
"""
import os
import subprocess
import sys

HERE = os.path.dirname(os.path.abspath(__file__))
LEAN = os.path.join(HERE, '..', 'lean')

PROGRAM = '''
open Verif Asn1
def thin (l : List Val) : List Val :=
  let k := l.length / 100 + 1
  (l.zipIdx.filter (fun p => p.2 % k == 0)).map (·.1)
partial def variants : Ty → List Val
  | .prim k a => (primSamples k a.spec ++ (match k with
     | .integer => [.int 2, .int 1000, .int (-1)]
     | .octetString => [.octets (List.replicate 200 0)]
     | .bitString => [.bits (List.replicate 9 true)]
     | .oid => [.oid [1,3,6,1,1]]
     | .str _ => [.str (List.replicate 10 '0'), .str (List.replicate 200 '0')]
     | _ => [])).filter (Ty.prim k a).valid
  | .choice _ cs => alts cs 0
  | .of i a t => ((lens a.spec).flatMap fun n => (thin (variants t)).map fun v => Val.list (Vals.ofList (List.replicate n v))).filter
      (Ty.of i a t).valid ++ (if (Ty.of i a t).valid (.list .nil) then [.list .nil] else [])
  | .seq i a cs =>
    match (Ty.seq i a cs).sample with
    | some (.record vs) => (Val.record vs :: (go cs vs.toList).map fun l => Val.record (Vals.ofList l)).filter (Ty.seq i a cs).valid
    | _ => []
  | .bad _ => []
where
  alts : Comps → Nat → List Val
  | .nil, _ => []
  | .cons _ t cs, i => (thin (variants t)).map (.alt i) ++ alts cs (i+1)
  go : Comps → List Val → List (List Val)
  | .cons f t cs, v :: vs => (((if f.mode.isOpt then [Val.absent] else []) ++ thin (variants t)).map (· :: vs)) ++ (go cs vs).map (v :: ·)
  | _, _ => []
def shortest (l : List Bytes) : Option Bytes := l.foldl (fun o b => match o with
  | none => some b
  | some c => if b.length < c.length then some b else o) none
def reads (s : Ty) (b : Bytes) : Bool := match decode s b with | some (_, []) => true | _ => false
def refuses (t s : Ty) : Option Bytes := shortest (((variants s).filterMap (encode s)).filter (fun b => reads s b && (decode t b).isNone))
def changes (t s : Ty) : Option Bytes := shortest (((variants s).filterMap (encode s)).filter (fun b => reads s b && decide (decode t b ≠ decode s b)))
def writes (t s : Ty) : Option Val := (variants s).find? (fun v => (encode s v).isSome && decide (encode t v ≠ encode s v))
def text (b : Bytes) : String := " ".intercalate (b.map (fun x => toString x.toNat))
def grade (t s : Ty) : String :=
  if t.agrees s then "same" else if t.relaxes s then "relaxed"
  else if t.sub s && s.sub t then match writes t s with
    | some v => "rewritten " ++ ((repr v).pretty 100000).replace "Verif.Asn1." ""
    | none => "widened"
  else if t.sub s then "widened"
  else match refuses t s with
    | some b => "refused " ++ text b
    | none => match changes t s with
      | some b => "changed " ++ text b
      | none => "UNKNOWN"
def go (l : List Std.Entry) : List String := l.filterMap fun e =>
  let t := e.obj.call.ty
  let c := grade t e.std ++ (if t.sameNames e.std then "" else " renamed")
  if c == "same" then none else some (e.name ++ " " ++ c)
def wrong (l : List Std.Constant) : List String := l.filterMap fun c =>
  if !(c.std.valid c.val && (encode c.std c.val).isSome) then some (c.name ++ " INVALID")
  else if c.written then none else some (c.name ++ " WRONG")
'''


def main():
    path = os.path.join(HERE, 'std', 'grades.txt')
    ns = [n.capitalize() for n in sys.argv[1:]]
    keep = [l for l in open(path) if ns and l.split('.')[0].capitalize() not in ns] if os.path.exists(path) else []
    if not ns:
        ns = sorted(f[:-5] for f in os.listdir(os.path.join(LEAN, 'Verif', 'Std')) if f.startswith('Rfc'))
    o = ''.join('import Verif.Std.%s\n' % n for n in ns)
    o += 'import Verif.Asn1.Relax\nimport Verif.Asn1.Sample\nimport Verif.Asn1.Grade\n' + PROGRAM
    o += '#eval (' + ' ++ '.join('go Std.%s.entries' % n for n in ns) + ').forM IO.println\n'
    o += '#eval (' + ' ++ '.join('wrong Std.%s.constants' % n for n in ns) + ').forM IO.println\n'
    lean = '/tmp/stdgrade.lean'
    open(lean, 'w').write(o)
    r = subprocess.run(['lake', 'env', 'lean', lean], cwd=LEAN, capture_output=True, text=True)
    if r.returncode:
        raise SystemExit(r.stdout[:2000] + r.stderr[:2000])
    out = r.stdout.replace('Val.', '.').replace('Vals.', '.').replace('.cons', 'Vals.cons').replace('.nil', 'Vals.nil')
    lines = out.splitlines(True)
    for l in lines:
        if ' INVALID' in l or ' UNKNOWN' in l:
            print(l[:200].rstrip())
    open(path, 'w').write(''.join(sorted(keep + lines)))


if __name__ == '__main__':
    main()
