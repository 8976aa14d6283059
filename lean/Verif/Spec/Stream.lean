/-!
# Specification vocabulary for streaming interfaces

Independent of the model of the C code: histories of update calls, and the
textbook description of a keystream cipher.
-/

namespace Gost.Spec

/-- A history of update calls `upd` on a context, starting from `s`: returns the
final context and the concatenation of all outputs. -/
def feed {S : Type} {B : Type} (upd : S → List B → S × List B) : S → List (List B) → S × List B
  | s, [] => (s, [])
  | s, x :: xs =>
    let r := upd s x
    let t := feed upd r.1 xs
    (t.1, r.2 ++ t.2)

/-- A history of update calls without output (digests, MACs). -/
def absorb {S : Type} {B : Type} (upd : S → List B → S) : S → List (List B) → S
  | s, [] => s
  | s, x :: xs => absorb upd (upd s x) xs

/-- Keystream encryption: byte number `i` of the data is XORed with byte `i % bl` of
gamma block number `i / bl`. -/
def xorStream (bl : Nat) (gamma : Nat → List (BitVec 8)) (data : List (BitVec 8)) :
    List (BitVec 8) :=
  data.mapIdx fun i x => x ^^^ (gamma (i / bl)).getD (i % bl) 0

/-- `f` applied `n` times. -/
def iter {A : Type} (f : A → A) : Nat → A → A
  | 0, a => a
  | n + 1, a => iter f n (f a)

/-- Big-endian encoding of `n` on `len` bytes (modulo `256^len`). -/
def beBytes : Nat → Nat → List (BitVec 8)
  | 0, _ => []
  | len + 1, n => beBytes len (n / 256) ++ [BitVec.ofNat 8 n]

/-- Little-endian encoding of `n` on `len` bytes (modulo `256^len`). -/
def leBytes : Nat → Nat → List (BitVec 8)
  | 0, _ => []
  | len + 1, n => BitVec.ofNat 8 n :: leBytes len (n / 256)

end Gost.Spec
