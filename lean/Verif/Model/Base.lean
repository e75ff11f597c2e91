import Mathlib.Analysis.SpecialFunctions.Pow.Real
import Mathlib.Analysis.SpecialFunctions.Trigonometric.Basic

/-!
# Vocabulary of the model

* `Res`: outcome of a piece of C code, with undefined behaviour as a distinct outcome;
* `Histo`: the C library functions and comparisons on `histo_t` (`src/define.h:12-16`, `src/common.c:18-79`)
  without any law, so that statements proved for every instance also hold for IEEE doubles;
* `Buf`: a C heap buffer whose cells may be uninitialised;
* `forRange`: a counted `for` loop.
-/

namespace Verif

/-- Outcome of a piece of C code.  `ub` stands for every access that C leaves undefined (out of bounds, uninitialised,
freed or missing memory). -/
inductive Res (β : Type) where
  | ok (b : β) : Res β
  | ub (why : String) : Res β
deriving DecidableEq

namespace Res

/-- Sequencing: undefined behaviour is absorbing. -/
def bind {β γ : Type} (r : Res β) (f : β → Res γ) : Res γ :=
  match r with
  | ok b => f b
  | ub w => ub w

instance : Monad Res where
  pure := ok
  bind := bind

@[simp] theorem ok_bind {β γ : Type} (b : β) (f : β → Res γ) : (ok b >>= f) = f b := rfl
@[simp] theorem ub_bind {β γ : Type} (w : String) (f : β → Res γ) : ((ub w : Res β) >>= f) = ub w := rfl
@[simp] theorem pure_eq {β : Type} (b : β) : (pure b : Res β) = ok b := rfl
@[simp] theorem map_ok {β γ : Type} (b : β) (f : β → γ) : (f <$> (ok b : Res β)) = ok (f b) := rfl

theorem bind_eq_ok {β γ : Type} {r : Res β} {f : β → Res γ} {c : γ} : (r >>= f) = ok c ↔ ∃ b, r = ok b ∧ f b = ok c := by
  cases r <;> simp

instance : LawfulMonad Res := LawfulMonad.mk' Res
  (id_map := fun x => by cases x <;> rfl)
  (pure_bind := fun _ _ => rfl)
  (bind_assoc := fun x _ _ => by cases x <;> rfl)

/-- The code ran without undefined behaviour. -/
def defined {β : Type} (r : Res β) : Prop := ∃ b, r = ok b

/-- The code ran into undefined behaviour. -/
def isUB {β : Type} (r : Res β) : Prop := ∃ w, r = ub w

end Res

/-- `size_t` arithmetic is modulo this number (LP64). -/
def sizeMod : ℕ := 2 ^ 64

/-- `a - b` on `size_t`. -/
def subSize (a b : ℕ) : ℕ := (a + sizeMod - b) % sizeMod

/-- `a + b` on `size_t`. -/
def addSize (a b : ℕ) : ℕ := (a + b) % sizeMod

/-- `a * b` on `size_t`. -/
def mulSize (a b : ℕ) : ℕ := (a * b) % sizeMod

/-- Comparisons, literals and library functions on `histo_t` (`src/common.c:18-79`).  No law is assumed.
`lt`/`le` are the C operators `<`/`<=` (`a > b` is written `lt b a`). -/
class Histo (α : Type) where
  lt : α → α → Bool
  le : α → α → Bool
  lit : ℚ → α
  ofNat : ℕ → α
  pi : α
  abs : α → α
  log : α → α
  exp : α → α
  pow : α → α → α
  sqrt : α → α
  sin : α → α
  cos : α → α

/-- The exact-arithmetic instance used for statements about values. -/
noncomputable instance : Histo ℝ where
  lt a b := @decide (a < b) (Classical.propDecidable _)
  le a b := @decide (a ≤ b) (Classical.propDecidable _)
  lit q := (q : ℝ)
  ofNat n := (n : ℝ)
  pi := Real.pi
  abs x := |x|
  log := Real.log
  exp := Real.exp
  pow := fun x y => x ^ y
  sqrt := Real.sqrt
  sin := Real.sin
  cos := Real.cos

section real
@[simp] theorem lt_real (a b : ℝ) : Histo.lt a b = true ↔ a < b := by simp [Histo.lt]
@[simp] theorem le_real (a b : ℝ) : Histo.le a b = true ↔ a ≤ b := by simp [Histo.le]
@[simp] theorem lt_real_false (a b : ℝ) : Histo.lt a b = false ↔ b ≤ a := by simp [Histo.lt]
@[simp] theorem le_real_false (a b : ℝ) : Histo.le a b = false ↔ b < a := by simp [Histo.le]
@[simp] theorem lit_real (q : ℚ) : (Histo.lit q : ℝ) = (q : ℝ) := rfl
@[simp] theorem ofNat_real (n : ℕ) : (Histo.ofNat n : ℝ) = (n : ℝ) := rfl
@[simp] theorem pi_real : (Histo.pi : ℝ) = Real.pi := rfl
@[simp] theorem abs_real (x : ℝ) : Histo.abs x = |x| := rfl
@[simp] theorem log_real (x : ℝ) : Histo.log x = Real.log x := rfl
@[simp] theorem exp_real (x : ℝ) : Histo.exp x = Real.exp x := rfl
@[simp] theorem pow_real (x y : ℝ) : Histo.pow x y = x ^ y := rfl
@[simp] theorem sqrt_real (x : ℝ) : Histo.sqrt x = Real.sqrt x := rfl
@[simp] theorem sin_real (x : ℝ) : Histo.sin x = Real.sin x := rfl
@[simp] theorem cos_real (x : ℝ) : Histo.cos x = Real.cos x := rfl
end real

/-- Checked read `a[i]` of an initialised C array. -/
def rd {α : Type} (a : List α) (i : ℕ) : Res α :=
  match a[i]? with
  | some v => .ok v
  | none => .ub "out of bounds read"

/-- A heap buffer; `none` cells are uninitialised. -/
abbrev Buf (α : Type) := List (Option α)

/-- `malloc(n*sizeof(histo_t))`: `n` uninitialised cells. -/
def malloc (α : Type) (n : ℕ) : Buf α := List.replicate n none

/-- Checked read of a buffer cell; reading an uninitialised cell is undefined. -/
def Buf.rd {α : Type} (b : Buf α) (i : ℕ) : Res α :=
  match b[i]? with
  | some (some v) => .ok v
  | some none => .ub "uninitialised read"
  | none => .ub "out of bounds read"

/-- Checked write of a buffer cell. -/
def Buf.wr {α : Type} (b : Buf α) (i : ℕ) (v : α) : Res (Buf α) :=
  if i < b.length then .ok (b.set i (some v)) else .ub "out of bounds write"

/-- `n` iterations of `body`, with the loop counter starting at `i`. -/
def iter {σ : Type} (body : ℕ → σ → Res σ) : ℕ → ℕ → σ → Res σ
  | 0, _, s => .ok s
  | n + 1, i, s => body i s >>= iter body n (i + 1)

/-- `for (i=lo;i<hi;i++) body`. -/
def forRange {σ : Type} (lo hi : ℕ) (s : σ) (body : ℕ → σ → Res σ) : Res σ :=
  iter body (hi - lo) lo s

/-- Loop rule for `iter`. -/
theorem iter_inv {σ : Type} {body : ℕ → σ → Res σ} (P : ℕ → σ → Prop) :
    ∀ (n i : ℕ) (s : σ), P i s →
      (∀ j s, i ≤ j → j < i + n → P j s → ∃ s', body j s = .ok s' ∧ P (j + 1) s') →
      ∃ s', iter body n i s = .ok s' ∧ P (i + n) s'
  | 0, i, s, h0, _ => ⟨s, rfl, h0⟩
  | n + 1, i, s, h0, hstep => by
      obtain ⟨s1, h1, hp1⟩ := hstep i s le_rfl (by omega) h0
      obtain ⟨s2, h2, hp2⟩ := iter_inv P n (i + 1) s1 hp1 (fun j s hj hj' hp => hstep j s (by omega) (by omega) hp)
      refine ⟨s2, ?_, ?_⟩
      · simp [iter, h1, h2]
      · have : i + (n + 1) = i + 1 + n := by omega
        rw [this]; exact hp2

/-- Loop rule: an invariant that holds at the start and is preserved by every iteration holds at the end. -/
theorem forRange_inv {σ : Type} {lo hi : ℕ} {s : σ} {body : ℕ → σ → Res σ} (P : ℕ → σ → Prop)
    (hle : lo ≤ hi) (h0 : P lo s)
    (hstep : ∀ j s, lo ≤ j → j < hi → P j s → ∃ s', body j s = .ok s' ∧ P (j + 1) s') :
    ∃ s', forRange lo hi s body = .ok s' ∧ P hi s' := by
  obtain ⟨s', h1, h2⟩ := iter_inv P (hi - lo) lo s h0 (fun j s hj hj' hp => hstep j s hj (by omega) hp)
  refine ⟨s', h1, ?_⟩
  have : lo + (hi - lo) = hi := by omega
  rwa [this] at h2

theorem forRange_empty {σ : Type} {lo hi : ℕ} {s : σ} {body : ℕ → σ → Res σ} (h : hi ≤ lo) :
    forRange lo hi s body = .ok s := by
  have : hi - lo = 0 := by omega
  simp [forRange, this, iter]

theorem rd_ok {α : Type} {a : List α} {i : ℕ} (h : i < a.length) : rd a i = .ok a[i] := by
  simp [rd, h]

theorem rd_ub {α : Type} {a : List α} {i : ℕ} (h : a.length ≤ i) : rd a i = .ub "out of bounds read" := by
  simp [rd, h]

theorem Buf.rd_ok {α : Type} {b : Buf α} {i : ℕ} {v : α} (h : b[i]? = some (some v)) : b.rd i = .ok v := by
  simp [Buf.rd, h]

theorem Buf.wr_ok {α : Type} {b : Buf α} {i : ℕ} {v : α} (h : i < b.length) : b.wr i v = .ok (b.set i (some v)) := by
  simp [Buf.wr, h]

end Verif
