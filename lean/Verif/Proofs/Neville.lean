import Verif.Proofs.Poly
import Mathlib.LinearAlgebra.Lagrange

/-! The tableau of `interpol_poly` over ℝ is Neville's tableau. -/

namespace Verif

open Polynomial

/-- Value at `x` of the polynomial through the nodes `a..a+j`. -/
noncomputable def nev (x : ℝ) (X Y : ℕ → ℝ) (j a : ℕ) : ℝ :=
  (Lagrange.interpolate (Finset.Icc a (a + j)) X Y).eval x

theorem nev_zero (x : ℝ) (X Y : ℕ → ℝ) (a : ℕ) : nev x X Y 0 a = Y a := by
  simp [nev]

theorem nev_succ (x : ℝ) (X Y : ℕ → ℝ) (j a nx : ℕ) (ha : a + j + 1 < nx)
    (hinj : ∀ i < nx, ∀ i' < nx, X i = X i' → i = i') :
    nev x X Y (j + 1) a = (nev x X Y j a * (x - X (a + (j + 1))) - nev x X Y j (a + 1) * (x - X a)) /
      (X a - X (a + (j + 1))) := by
  have hne : X a - X (a + (j + 1)) ≠ 0 := by
    intro h
    have := hinj a (by omega) (a + (j + 1)) (by omega) (sub_eq_zero.mp h)
    omega
  have hne' : X (a + (j + 1)) - X a ≠ 0 := by
    intro h; apply hne; linarith
  have hinj' : Set.InjOn X (Finset.Icc a (a + (j + 1)) : Finset ℕ) := by
    intro i hi i' hi' h
    simp at hi hi'
    exact hinj i (by omega) i' (by omega) h
  have e1 : (Finset.Icc a (a + (j + 1))).erase (a + (j + 1)) = Finset.Icc a (a + j) := by
    ext i; simp; omega
  have e2 : (Finset.Icc a (a + (j + 1))).erase a = Finset.Icc (a + 1) (a + 1 + j) := by
    ext i; simp; omega
  unfold nev
  rw [Lagrange.interpolate_eq_add_interpolate_erase (i := a) (j := a + (j + 1)) (r := Y) hinj' (by simp) (by simp) (by omega),
    e1, e2]
  simp only [eval_add, eval_mul, Lagrange.basisDivisor, eval_C, eval_sub, eval_X]
  field_simp
  ring

theorem tableau_diff (x : ℝ) (X Y : ℕ → ℝ) (nx : ℕ) (hinj : ∀ i < nx, ∀ i' < nx, X i = X i' → i = i') :
    ∀ j a, a + j + 1 < nx →
      (tableau x X Y (j + 1) a).1 = nev x X Y (j + 1) a - nev x X Y j a ∧
      (tableau x X Y (j + 1) a).2 = nev x X Y (j + 1) a - nev x X Y j (a + 1) := by
  intro j
  induction j with
  | zero =>
    intro a ha
    have hne : X a - X (a + (0 + 1)) ≠ 0 := by
      intro h
      have := hinj a (by omega) (a + (0 + 1)) (by omega) (sub_eq_zero.mp h)
      omega
    rw [nev_succ x X Y 0 a nx ha hinj]
    simp only [nev_zero, tableau]
    constructor <;> field_simp <;> ring
  | succ j ih =>
    intro a ha
    have hne : X a - X (a + (j + 1 + 1)) ≠ 0 := by
      intro h
      have := hinj a (by omega) (a + (j + 1 + 1)) (by omega) (sub_eq_zero.mp h)
      omega
    have h1 := (ih (a + 1) (by omega)).1
    have h2 := (ih a (by omega)).2
    rw [nev_succ x X Y (j + 1) a nx ha hinj, tableau]
    simp only [h1, h2]
    constructor <;> field_simp <;> ring

/-- `interpol_poly` evaluates the Lagrange interpolant. -/
theorem interpolPoly_lagrange (x : ℝ) (tabx taby : List ℝ) (nx : ℕ) (X Y : ℕ → ℝ) (h0 : 0 < nx) (hsz : nx < 2 ^ 63)
    (hX : ∀ i < nx, tabx[i]? = some (X i)) (hY : ∀ i < nx, taby[i]? = some (Y i))
    (hinj : ∀ i < nx, ∀ i' < nx, X i = X i' → i = i') :
    interpolPoly x tabx taby nx = .ok ((Lagrange.interpolate (Finset.range nx) X Y).eval x) := by
  obtain ⟨y, h1, h2⟩ := interpolPoly_rule x tabx taby nx X Y h0 hsz hX hY (fun j a y => y = nev x X Y j a)
    (fun a _ => (nev_zero x X Y a).symm)
    (fun j a y hlt hy => by rw [hy, (tableau_diff x X Y nx hinj j a hlt).1]; ring)
    (fun j a y hlt hy => by rw [hy, (tableau_diff x X Y nx hinj j a hlt).2]; ring)
  rw [h1, h2]
  have : Finset.Icc 0 (0 + (nx - 1)) = Finset.range nx := by
    ext i; simp; omega
  rw [nev, this]

end Verif
