import Verif.Model.Streebog
import Verif.Spec.Streebog

/-! # The tables of Streebog, checked by the kernel entry by entry -/

namespace Gost
open Spec

theorem Ax_check : ((List.range 8).all fun j => (List.range 256).all fun x =>
    Ax j (BitVec.ofNat 8 x) == Streebog.l ((Kuz.pi (BitVec.ofNat 8 x)).setWidth 64 <<< (8 * j))) = true := by
  decide +kernel

theorem C_check : (List.range 12).map streebogConst = Streebog.C := by decide +kernel

end Gost
