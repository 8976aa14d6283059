/-!
# Specification: objects are freed exactly once

A call is seen through the list of things it does to heap objects, in order. Objects are numbered in the order in which they turn up.
-/

namespace Gost.Spec

/-- What a call does to an object. -/
inductive ResEv where
  /-- The object comes into being, owned by the call. -/
  | alloc (p : Nat)
  /-- The object is the caller's; the call got a pointer to it. -/
  | lent (p : Nat)
  /-- The object is read or written. -/
  | use (p : Nat)
  /-- The object is freed. -/
  | free (p : Nat)
  /-- The object is handed over: the caller, or an object that lives on, owns it and will free it. -/
  | give (p : Nat)
  /-- A NULL pointer is read or written. -/
  | nullUse
deriving DecidableEq, Repr

/-- The object an event is about. -/
def ResEv.obj : ResEv → Option Nat
  | .alloc p | .lent p | .use p | .free p | .give p => some p
  | .nullUse => none

/-- A call that manages its objects correctly. -/
structure Tidy (tr : List ResEv) : Prop where
  /-- No NULL pointer is followed. -/
  noNull : ResEv.nullUse ∉ tr
  /-- Every object the call made is freed or handed over, one of the two and once: no leak, no double free. -/
  once : ∀ p, ResEv.alloc p ∈ tr → tr.count (.free p) + tr.count (.give p) = 1
  /-- The caller's objects are neither freed nor given away. -/
  others : ∀ p, ResEv.lent p ∈ tr → ResEv.free p ∉ tr ∧ ResEv.give p ∉ tr
  /-- Nothing is done to an object after it was freed. -/
  dead : ∀ p before after, tr = before ++ ResEv.free p :: after → ∀ e ∈ after, e.obj ≠ some p

end Gost.Spec
