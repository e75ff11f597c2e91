import Verif.Model.Common

/-!
# Rounded arithmetic

A second reading of the numeric code of `src/common.c`: every operation is followed by a rounding.
-/

namespace Verif

/-- The numbers `histo_t` (`src/define.h:11-15`) with a rounding function: the value of a variable. -/
structure Fl (r : ℝ → ℝ) where
  val : ℝ

namespace Fl

variable {r : ℝ → ℝ}

noncomputable instance : Add (Fl r) := ⟨fun a b => ⟨r (a.val + b.val)⟩⟩
noncomputable instance : Sub (Fl r) := ⟨fun a b => ⟨r (a.val - b.val)⟩⟩
noncomputable instance : Mul (Fl r) := ⟨fun a b => ⟨r (a.val * b.val)⟩⟩
noncomputable instance : Div (Fl r) := ⟨fun a b => ⟨r (a.val / b.val)⟩⟩
noncomputable instance : Neg (Fl r) := ⟨fun a => ⟨-a.val⟩⟩

/-- Comparisons and absolute values are exact; literals, `M_PI` and the library functions (`src/common.c:18-79`) are rounded
once.  Fused operations are not considered. -/
noncomputable instance : Histo (Fl r) where
  lt a b := Histo.lt a.val b.val
  le a b := Histo.le a.val b.val
  lit q := ⟨r q⟩
  ofNat n := ⟨r n⟩
  pi := ⟨r Real.pi⟩
  abs x := ⟨|x.val|⟩
  log x := ⟨r (Real.log x.val)⟩
  exp x := ⟨r (Real.exp x.val)⟩
  pow x y := ⟨r (x.val ^ y.val)⟩
  sqrt x := ⟨r (Real.sqrt x.val)⟩
  sin x := ⟨r (Real.sin x.val)⟩
  cos x := ⟨r (Real.cos x.val)⟩

@[simp] theorem add_val (a b : Fl r) : (a + b).val = r (a.val + b.val) := rfl
@[simp] theorem sub_val (a b : Fl r) : (a - b).val = r (a.val - b.val) := rfl
@[simp] theorem mul_val (a b : Fl r) : (a * b).val = r (a.val * b.val) := rfl
@[simp] theorem div_val (a b : Fl r) : (a / b).val = r (a.val / b.val) := rfl
@[simp] theorem lit_val (q : ℚ) : (Histo.lit q : Fl r).val = r q := rfl
@[simp] theorem pi_val : (Histo.pi : Fl r).val = r Real.pi := rfl
@[simp] theorem lt_iff (a b : Fl r) : Histo.lt a b = true ↔ a.val < b.val := lt_real _ _

end Fl

/-- The table of the values. -/
def Pk.vals {r : ℝ → ℝ} (t : Pk (Fl r)) : Pk ℝ := ⟨t.nk, t.k.map Fl.val, t.pk.map Fl.val⟩

end Verif
