import Verif.Model.Gostsum

/-!
# What the checksum tools should do
-/

namespace Gost.Spec

/-- The characters `0`..`9`, `a`..`f`. -/
def hexChars : List Byte := "0123456789abcdef".toList.map fun c => BitVec.ofNat 8 c.toNat

/-- A byte string as lower-case hexadecimal text, the high digit of a byte first. -/
def hexText (b : Bytes) : Bytes := b.flatMap fun x => [hexChars.getD (x.toNat / 16) 0, hexChars.getD (x.toNat % 16) 0]

/-- The contents of a file: what all the reads deliver, if it can be opened and read to its end. -/
def contents (fs : Files) (name : Bytes) : Option Bytes :=
  match fs name with
  | none => none
  | some r => if r.err then none else some r.chunks.flatten

/-- A file name as a C program can have it: not empty, without NUL, without line feed, not ending in a carriage return, and
of at most `max` characters. -/
def FileName (max : Nat) (name : Bytes) : Prop :=
  name ≠ [] ∧ 0x00 ∉ name ∧ 0x0a ∉ name ∧ name.getLast? ≠ some 0x0d ∧ name.length ≤ max

/-- The checksum file for a list of files: a line `digest name` for each file that can be read. -/
def sumFile (digest : Bytes → Bytes) (fs : Files) : List Bytes → Bytes
  | [] => []
  | name :: names =>
    match contents fs name with
    | none => sumFile digest fs names
    | some m => hexText (digest m) ++ [0x20] ++ name ++ [0x0a] ++ sumFile digest fs names

/-- The outcome of checking the files of a list that were readable in `fs` against `fs'`: how many differ, how many cannot be
read, how many there are. -/
def sumCheck (digest : Bytes → Bytes) (fs fs' : Files) : List Bytes → CheckRes
  | [] => ⟨0, 0, 0⟩
  | name :: names =>
    let t := sumCheck digest fs fs' names
    match contents fs name with
    | none => t
    | some m =>
      match contents fs' name with
      | none => { t with errors := t.errors + 1, count := t.count + 1 }
      | some m' =>
        if digest m' = digest m then { t with count := t.count + 1 }
        else { t with failcount := t.failcount + 1, count := t.count + 1 }

end Gost.Spec
