import Verif.Proofs.Gauss
import Verif.Model.MuRange

/-!
# C13–C16 – quadrature rules and angular ranges
-/

open Polynomial

namespace Verif

/-! ## C13 -/

/-- C13: in every arithmetic and whatever the root search returns, the call is free of undefined behaviour for buffers of at least
`n` cells, initialises cells `0..n-1` of both, and leaves the others alone. -/
theorem C13_nodes_cells {α : Type} [Add α] [Sub α] [Mul α] [Div α] [Neg α] [Histo α]
    (rt : ℕ → α × α) (xmin xmax : α) (x w : Buf α) (n : ℕ) (hn : n < 2 ^ 63) (hx : n ≤ x.length) (hw : n ≤ w.length) :
    ∃ x' w', nodesWeights rt xmin xmax x w n = .ok (x', w') ∧ x'.length = x.length ∧ w'.length = w.length ∧
      ∀ i, (i < n → (∃ v, x'[i]? = some (some v)) ∧ ∃ v, w'[i]? = some (some v)) ∧
        (n ≤ i → x'[i]? = x[i]? ∧ w'[i]? = w[i]?) := by
  obtain ⟨x', w', h1, h2, h3, h4⟩ := nodesWeights_cells rt xmin xmax x w n hn hx hw
  refine ⟨x', w', h1, h2, h3, fun i => ⟨fun hi => ?_, fun hi => ?_⟩⟩
  · have := h4 i
    rw [if_pos hi, if_pos hi] at this
    exact ⟨⟨_, this.1⟩, ⟨_, this.2⟩⟩
  · have := h4 i
    rw [if_neg (by omega), if_neg (by omega)] at this
    exact this

/-- C13: nodes `i` and `n-1-i` are mirror images about the mid-point and have the same weight, whatever the root search returns. -/
theorem C13_nodes_mirror (rt : ℕ → ℝ × ℝ) (xmin xmax : ℝ) (x w : Buf ℝ) (n : ℕ) (hn : n < 2 ^ 63)
    (hx : x.length = n) (hw : w.length = n) :
    ∃ xs ws : List ℝ, nodesWeights rt xmin xmax x w n = .ok (xs.map some, ws.map some) ∧ xs.length = n ∧ ws.length = n ∧
      ∀ i, i < n → i ≠ n - 1 - i → xs.getD i 0 + xs.getD (n - 1 - i) 0 = xmin + xmax ∧ ws.getD i 0 = ws.getD (n - 1 - i) 0 := by
  refine ⟨_, _, nodesWeights_eq rt xmin xmax x w n hn hx hw, by simp, by simp, ?_⟩
  intro i hi hne
  have e : ∀ (f : ℕ → ℝ) j, j < n → ((List.range n).map f).getD j 0 = f j := by
    intro f j hj; simp [hj]
  rw [e _ i hi, e _ _ (by omega), e _ i hi, e _ _ (by omega)]
  have h2 : n - 1 - (n - 1 - i) = i := by omega
  unfold nodeAt weightAt
  simp only [lit_real]
  by_cases c : 2 * i + 1 < n
  · have c' : ¬ 2 * (n - 1 - i) + 1 < n := by omega
    rw [if_pos c, if_neg c', if_pos c, if_neg c', h2]
    refine ⟨by push_cast; ring, rfl⟩
  · have c' : 2 * (n - 1 - i) + 1 < n := by omega
    rw [if_neg c, if_pos c', if_neg c, if_pos c']
    refine ⟨by push_cast; ring, rfl⟩

/-- C13: mapping the interval by an affine map maps the nodes by it and multiplies the weights by its slope. -/
theorem C13_nodes_affine (rt : ℕ → ℝ × ℝ) (xmin xmax a b : ℝ) (x w x' w' : Buf ℝ) (n : ℕ) (hn : n < 2 ^ 63)
    (hx : x.length = n) (hw : w.length = n) (hx' : x'.length = n) (hw' : w'.length = n) :
    ∃ xs ws : List ℝ, nodesWeights rt xmin xmax x w n = .ok (xs.map some, ws.map some) ∧
      nodesWeights rt (a * xmin + b) (a * xmax + b) x' w' n =
        .ok ((xs.map fun y => a * y + b).map some, (ws.map fun v => a * v).map some) := by
  refine ⟨_, _, nodesWeights_eq rt xmin xmax x w n hn hx hw, ?_⟩
  rw [nodesWeights_eq rt _ _ x' w' n hn hx' hw']
  rw [List.map_map (g := fun y => a * y + b), List.map_map (g := fun v => a * v)]
  congr 4
  · funext i
    simp only [nodeAt, Function.comp, lit_real]
    split <;> push_cast <;> ring
  · funext i
    simp only [weightAt, Function.comp, lit_real]
    push_cast; ring

example : ∃ xs ws : List ℝ, nodesWeights (fun i => ((1 / (i + 2) : ℝ), (3 : ℝ))) 2 6 (malloc ℝ 5) (malloc ℝ 5) 5 = .ok (xs.map some, ws.map some) ∧
    xs.getD 1 0 + xs.getD 3 0 = 8 := by
  obtain ⟨xs, ws, h1, _, _, h4⟩ := C13_nodes_mirror (fun i => ((1 / (i + 2) : ℝ), (3 : ℝ))) 2 6 (malloc ℝ 5) (malloc ℝ 5) 5 (by norm_num) rfl rfl
  exact ⟨xs, ws, h1, by rw [(h4 1 (by norm_num) (by norm_num)).1]; norm_num⟩

/-! ## C14 -/

/-- C14: the recurrence evaluates the Legendre polynomial at the current iterate. -/
theorem C14_recurrence (n : ℕ) (P : ℝ[X]) (hP : IsLegendre n P) (z : ℝ) : (legendrePair z n).1 = P.eval z :=
  legendrePair_eval n P hP z

/-- C14: the code's derivative is the exact derivative (`z` not an end point). -/
theorem C14_derivative (n : ℕ) (P : ℝ[X]) (hP : IsLegendre n P) (z : ℝ) (hz : z * z ≠ 1) :
    legendreDeriv z n = (derivative P).eval z :=
  legendreDeriv_eval n P hP z hz

/-- C14: what the root search returns is one Newton step of the Legendre polynomial from a point at most `3e-14` away, together
with the exact derivative at that point (at least one step is always made). -/
theorem C14_newton (n : ℕ) (P : ℝ[X]) (hP : IsLegendre n P) (fuel ii : ℕ) (pp0 z pp : ℝ) (h : root fuel n ii pp0 = some (z, pp)) :
    ∃ y, |z - y| ≤ 3 / 100000000000000 ∧ (y * y ≠ 1 → z = y - P.eval y / (derivative P).eval y ∧ pp = (derivative P).eval y) := by
  have he : (eps : ℝ) = 3 / 100000000000000 := by simp [eps]
  unfold root at h
  dsimp only at h
  obtain ⟨y, h1, h2⟩ := newton_some n P hP fuel _ _ _ _ _ h (Or.inl (by
    have h0 : (0 : ℝ) < eps := by rw [he]; norm_num
    simp only [lit_real]
    rw [abs_sub_comm, add_assoc, add_sub_cancel_left]
    push_cast
    rw [abs_of_pos (by linarith)]
    linarith))
  exact ⟨y, he ▸ h1, h2⟩

/-- C14: if the reference nodes are `n` distinct roots of the Legendre polynomial and the stored derivatives are exact, then on
every interval the rule integrates every polynomial of degree `< 2n` exactly, the weights sum to the length of the interval and
are positive. -/
theorem C14_exact (n : ℕ) (h1 : 1 ≤ n) (hn : n < 2 ^ 63) (P : ℝ[X]) (hP : IsLegendre n P) (rt : ℕ → ℝ × ℝ)
    (hpp : ∀ i < (n + 1) / 2, (rt i).2 = (derivative P).eval (rt i).1)
    (xs ws : List ℝ) (href : nodesWeights rt (-1) 1 (malloc ℝ n) (malloc ℝ n) n = .ok (xs.map some, ws.map some))
    (hnd : xs.Nodup) (hroots : ∀ x ∈ xs, P.eval x = 0)
    (xmin xmax : ℝ) (x w : Buf ℝ) (hx : x.length = n) (hw : w.length = n) :
    ∃ ys vs : List ℝ, nodesWeights rt xmin xmax x w n = .ok (ys.map some, vs.map some) ∧
      (∀ f : ℝ[X], f.degree < ((2 * n : ℕ) : WithBot ℕ) →
        (List.zipWith (fun y v => v * f.eval y) ys vs).sum = ∫ t in xmin..xmax, f.eval t) ∧
      vs.sum = xmax - xmin ∧ (xmin < xmax → ∀ v ∈ vs, 0 < v) := by
  have hleg := hP.unique
  subst hleg
  rw [nodesWeights_eq rt _ _ _ _ n hn (by simp [malloc]) (by simp [malloc])] at href
  have hxs : xs = (List.range n).map (nodeAt rt (-1) 1 n) := by
    have := (Prod.mk.inj (Res.ok.inj href)).1
    exact ((List.map_injective_iff.mpr (Option.some_injective ℝ)) this).symm
  subst hxs
  have hinj : Set.InjOn (nodeAt rt (-1) 1 n) (Finset.range n) := by
    intro a ha b hb hab
    exact List.inj_on_of_nodup_map hnd (by simpa using ha) (by simpa using hb) hab
  have hroot : ∀ i < n, (leg n).eval (nodeAt rt (-1) 1 n i) = 0 := fun i hi =>
    hroots _ (List.mem_map.mpr ⟨i, by simpa using hi, rfl⟩)
  refine ⟨_, _, nodesWeights_eq rt xmin xmax x w n hn hx hw, ?_, ?_, ?_⟩
  · intro f hf
    rw [sum_range_list]
    exact rule_exact n rt hpp hinj hroot xmin xmax f hf
  · have := rule_exact n rt hpp hinj hroot xmin xmax 1 (by rw [degree_one]; exact_mod_cast (by omega : 0 < 2 * n))
    rw [sum_range_list1]
    simpa using this
  · intro hlt v hv
    obtain ⟨i, hi, rfl⟩ := List.mem_map.mp hv
    have hi' : i < n := by simpa using hi
    rw [weightAt_ref rt n hpp xmin xmax i hi', ← (gauss_weight hroot hinj i hi').1]
    have := (gauss_weight hroot hinj i hi').2
    have : 0 < (xmax - xmin) / 2 := by linarith
    positivity

/-- C14, non-vacuity for every `n`: the Legendre polynomial exists, and there are root-search outcomes meeting the hypotheses of
`C14_exact`, with the nodes in `(-1,1)`. -/
theorem C14_roots_exist (n : ℕ) (hn : n < 2 ^ 63) : ∃ (P : ℝ[X]) (rt : ℕ → ℝ × ℝ) (xs ws : List ℝ), IsLegendre n P ∧
    (∀ i < (n + 1) / 2, (rt i).2 = (derivative P).eval (rt i).1) ∧
    nodesWeights rt (-1) 1 (malloc ℝ n) (malloc ℝ n) n = .ok (xs.map some, ws.map some) ∧
    xs.Nodup ∧ (∀ x ∈ xs, P.eval x = 0) ∧ (∀ x ∈ xs, -1 < x ∧ x < 1) ∧ xs.Pairwise (· < ·) := by
  obtain ⟨z, h1, h2⟩ := leg_roots n
  have hm := leg_roots_mirror n z h1 (fun i hi => (h2 i hi).2.2)
  set rt : ℕ → ℝ × ℝ := fun i => (z i, (derivative (leg n)).eval (z i)) with hrt
  have hnode : ∀ i < n, nodeAt rt (-1) 1 n i = z (n - 1 - i) := by
    intro i hi
    unfold nodeAt
    simp only [lit_real]
    by_cases c : 2 * i + 1 < n
    · rw [if_pos c, hm i hi]; push_cast; ring
    · rw [if_neg c]; push_cast; ring
  have hpw : ((List.range n).map (nodeAt rt (-1) 1 n)).Pairwise (· < ·) := by
    rw [List.pairwise_map]
    refine (List.pairwise_lt_range (n := n)).imp_of_mem ?_
    intro a b ha hb hab
    have hb' : b < n := by simpa using hb
    rw [hnode a (by omega), hnode b hb']
    exact h1 _ _ (by omega) (by omega)
  refine ⟨leg n, rt, _, _, leg_isLegendre n, fun i _ => rfl, nodesWeights_eq rt _ _ _ _ n hn (by simp [malloc]) (by simp [malloc]),
    hpw.imp (fun h => ne_of_lt h), ?_, ?_, hpw⟩
  · intro x hx
    obtain ⟨i, hi, rfl⟩ := List.mem_map.mp hx
    have hi' : i < n := by simpa using hi
    rw [hnode i hi']
    exact (h2 _ (by omega)).2.2
  · intro x hx
    obtain ⟨i, hi, rfl⟩ := List.mem_map.mp hx
    have hi' : i < n := by simpa using hi
    rw [hnode i hi']
    exact ⟨(h2 _ (by omega)).1, (h2 _ (by omega)).2.1⟩

/-! ## C15 -/

/-- C15: any sequence of range changes followed by a last one equals the last one alone, in every arithmetic. -/
theorem C15_mu_history {α : Type} [Add α] [Sub α] [Mul α] [Div α] [Neg α] [Histo α] (g : GLMu α) (hist : List (α × α)) (a b : α) :
    updateGLMu (hist.foldl (fun s r => updateGLMu s r.1 r.2) g) a b = updateGLMu g a b := by
  induction hist generalizing g with
  | nil => rfl
  | cons r hist ih => rw [List.foldl_cons, ih]; rfl

/-- C15: the same for the output wavenumber of the radial rule. -/
theorem C15_q_history {α : Type} [Add α] [Sub α] [Mul α] [Div α] [Neg α] [Histo α] (g : GLQ α) (hist : List α) (k : α) :
    updateGLQ (hist.foldl updateGLQ g) k = updateGLQ g k := by
  induction hist generalizing g with
  | nil => rfl
  | cons r hist ih => rw [List.foldl_cons, ih]; rfl

/-- C15: the remapped weights sum to the range length relative to the reference rule, and the nodes stay inside the range. -/
theorem C15_mu_range (g : GLMu ℝ) (a b : ℝ) :
    (updateGLMu g a b).w.sum = g.wref.sum * ((b - a) / 2) ∧
    (a ≤ b → (∀ m ∈ g.muref, -1 ≤ m ∧ m ≤ 1) → ∀ m ∈ (updateGLMu g a b).mu, a ≤ m ∧ m ≤ b) := by
  constructor
  · simp only [updateGLMu, lit_real]
    rw [List.sum_map_mul_right]
    simp
  · intro hab hr m hm
    simp only [updateGLMu, lit_real, List.mem_map] at hm
    obtain ⟨r, hr', rfl⟩ := hm
    obtain ⟨l, u⟩ := hr r hr'
    push_cast
    constructor <;> nlinarith

/-- C15: after any history of range changes the angular rule is the Gauss-Legendre rule built directly on the last range. -/
theorem C15_mu_is_rule (rt : ℕ → ℝ × ℝ) (n : ℕ) (hn : n < 2 ^ 63) (hist : List (ℝ × ℝ)) (a b : ℝ) :
    ∃ g, initGLMu rt n = .ok g ∧
      nodesWeights rt a b (malloc ℝ n) (malloc ℝ n) n =
        .ok ((updateGLMu (hist.foldl (fun s r => updateGLMu s r.1 r.2) g) a b).mu.map some,
          (updateGLMu (hist.foldl (fun s r => updateGLMu s r.1 r.2) g) a b).w.map some) := by
  refine ⟨_, initGLMu_eq rt n hn, ?_⟩
  rw [C15_mu_history, nodesWeights_eq rt a b _ _ n hn (by simp [malloc]) (by simp [malloc])]
  simp only [updateGLMu, List.map_map]
  congr 2
  · apply List.map_congr_left
    intro i _
    simp only [Function.comp, nodeAt, lit_real]
    split <;> push_cast <;> congr 1 <;> ring
  · apply List.map_congr_left
    intro i _
    simp only [Function.comp, weightAt, lit_real]
    push_cast
    congr 1; ring

example : (updateGLMu (updateGLMu (⟨2, [-1 / 2, 1 / 2], [1, 1], [], []⟩ : GLMu ℝ) 0 1) 2 4).mu = [5 / 2, 7 / 2] := by
  norm_num [updateGLMu]

/-! ## C16 -/

theorem cMax_real (a b : ℝ) : cMax a b = max a b := by
  unfold cMax
  by_cases h : b < a
  · rw [if_pos (by simpa using h), max_eq_left h.le]
  · rw [if_neg (by simpa using h), max_eq_right (not_lt.mp h)]

theorem cMin_real (a b : ℝ) : cMin a b = min a b := by
  unfold cMin
  by_cases h : a < b
  · rw [if_pos (by simpa using h), min_eq_left h.le]
  · rw [if_neg (by simpa using h), min_eq_right (not_lt.mp h)]

/-- C16: `set_mu_range` reads only existing nodes, in every arithmetic. -/
theorem C16_muRange_safe {α : Type} [Add α] [Sub α] [Mul α] [Div α] [Neg α] [Histo α] (half : Bool) (xs : List α) (x : α)
    (h1 : 1 ≤ xs.length) (hn : xs.length < 2 ^ 63) : (muRange half xs xs.length x).defined := by
  unfold muRange
  rw [rd_ok (by omega), subSize_eq h1 (by unfold sizeMod; omega), rd_ok (by omega)]
  simp only [Res.ok_bind]
  split
  · exact ⟨_, rfl⟩
  · exact ⟨_, rfl⟩

/-- C16: for positive ascending radial nodes (in units of `k`) and every node `x`: a chosen range `[a,b]` lies in `[-1,1]`, is not
reversed, and every angle of it gives `|k-q|^2/k^2 = 1+x^2-2 mu x` between the squares of the extreme nodes, and in half-plane
mode also `|k-q| >= q`.  Without half-plane mode every angle of `[-1,1]` outside the range (all of them if there is none) gives
`|k-q|` not strictly between the extreme nodes. -/
theorem C16_muRange (half : Bool) (xs : List ℝ) (h1 : 1 ≤ xs.length) (hn : xs.length < 2 ^ 63) (hpos : ∀ y ∈ xs, 0 < y)
    (hasc : xs.Pairwise (· < ·)) (x : ℝ) (hx : x ∈ xs) :
    ∃ r, muRange half xs xs.length x = .ok r ∧
      (∀ a b, r = some (a, b) → -1 ≤ a ∧ a ≤ b ∧ b ≤ 1 ∧ ∀ mu, a ≤ mu → mu ≤ b →
        xs.getD 0 0 ^ 2 ≤ 1 + x ^ 2 - 2 * mu * x ∧ 1 + x ^ 2 - 2 * mu * x ≤ xs.getD (xs.length - 1) 0 ^ 2 ∧
        (half = true → x ^ 2 ≤ 1 + x ^ 2 - 2 * mu * x)) ∧
      (half = false → ∀ mu, -1 ≤ mu → mu ≤ 1 → (∀ a b, r = some (a, b) → mu < a ∨ b < mu) →
        1 + x ^ 2 - 2 * mu * x ≤ xs.getD 0 0 ^ 2 ∨ xs.getD (xs.length - 1) 0 ^ 2 ≤ 1 + x ^ 2 - 2 * mu * x) := by
  have hx0 := hpos x hx
  obtain ⟨i, hi, hxi⟩ := List.getElem_of_mem hx
  have hmono : ∀ a b, a ≤ b → b < xs.length → xs.getD a 0 ≤ xs.getD b 0 := by
    intro a b hab hb
    rcases hab.eq_or_lt with rfl | hab
    · exact le_rfl
    · have := List.pairwise_iff_getElem.mp hasc a b (by omega) hb hab
      simpa [List.getD_eq_getElem?_getD, hb, (by omega : a < xs.length)] using this.le
  have hgi : xs.getD i 0 = x := by simp [List.getD_eq_getElem?_getD, hi, hxi]
  have hmin : xs.getD 0 0 ≤ x := hgi ▸ hmono 0 i (by omega) hi
  have hmax : x ≤ xs.getD (xs.length - 1) 0 := hgi ▸ hmono i _ (by omega) (by omega)
  have hmin0 : 0 < xs.getD 0 0 := by
    have : xs.getD 0 0 ∈ xs := by
      rw [List.getD_eq_getElem?_getD, List.getElem?_eq_getElem (by omega)]; exact List.getElem_mem _
    exact hpos _ this
  unfold muRange
  rw [rd_ok (by omega), subSize_eq h1 (by unfold sizeMod; omega), rd_ok (by omega)]
  simp only [Res.ok_bind]
  have g0 : xs[0] = xs.getD 0 0 := by simp [List.getD_eq_getElem?_getD, (by omega : 0 < xs.length)]
  have g1 : xs[xs.length - 1] = xs.getD (xs.length - 1) 0 := by
    simp [List.getD_eq_getElem?_getD, (by omega : xs.length - 1 < xs.length)]
  rw [g0, g1]
  generalize xs.getD 0 0 = lo at *
  generalize xs.getD (xs.length - 1) 0 = hi' at *
  simp only [cMax_real, cMin_real, lit_real]
  push_cast
  set A := (1 + x * x - hi' * hi') / 2 / x with hA
  set B := (1 + x * x - lo * lo) / 2 / x with hB
  have eA : 2 * A * x = 1 + x * x - hi' * hi' := by rw [hA]; field_simp
  have eB : 2 * B * x = 1 + x * x - lo * lo := by rw [hB]; field_simp
  have hAB : ∀ mu, A ≤ mu → 1 + x ^ 2 - 2 * mu * x ≤ hi' ^ 2 := fun mu h => by nlinarith
  have hBA : ∀ mu, mu ≤ B → lo ^ 2 ≤ 1 + x ^ 2 - 2 * mu * x := fun mu h => by nlinarith
  have hAB' : ∀ mu, mu ≤ A → hi' ^ 2 ≤ 1 + x ^ 2 - 2 * mu * x := fun mu h => by nlinarith
  have hBA' : ∀ mu, B ≤ mu → 1 + x ^ 2 - 2 * mu * x ≤ lo ^ 2 := fun mu h => by nlinarith
  by_cases c : (Histo.le 1 (max (-1) A) || Histo.le (min 1 B) (-1) || Histo.le (min 1 B) (max (-1) A)) = true
  · rw [if_pos c]
    refine ⟨none, rfl, by simp, ?_⟩
    intro _ mu m1 m2 _
    simp only [Bool.or_eq_true, le_real] at c
    rcases c with (c | c) | c
    · rcases le_max_iff.mp c with c | c
      · norm_num at c
      · exact Or.inr (hAB' _ (m2.trans c))
    · rcases min_le_iff.mp c with c | c
      · norm_num at c
      · exact Or.inl (hBA' _ (c.trans m1))
    · rcases min_le_iff.mp c with c | c <;> rcases le_max_iff.mp c with c | c
      · norm_num at c
      · exact Or.inr (hAB' _ (m2.trans c))
      · exact Or.inl (hBA' _ (c.trans m1))
      · rcases le_total mu A with h | h
        · exact Or.inr (hAB' _ h)
        · exact Or.inl (hBA' _ (c.trans h))
  · rw [if_neg c]
    simp only [Bool.or_eq_true, le_real, not_or, not_le] at c
    obtain ⟨⟨c1, c2⟩, c3⟩ := c
    refine ⟨_, rfl, ?_, ?_⟩
    · intro a b hab
      obtain ⟨rfl, rfl⟩ := Prod.mk.inj (Option.some.inj hab)
      have hlow : ∀ mu, mu ≤ 1 / 2 / x → x ^ 2 ≤ 1 + x ^ 2 - 2 * mu * x := by
        intro mu hmu
        have : mu * x ≤ 1 / 2 := by rwa [← le_div_iff₀ hx0]
        linarith
      by_cases ch : (half && Histo.le (1 / 2) x) = true
      · rw [if_pos ch]
        simp only [Bool.and_eq_true, le_real] at ch
        have hle1 : 1 / 2 / x ≤ 1 := by rw [div_le_one hx0]; exact ch.2
        have hleB : 1 / 2 / x ≤ B := by
          rw [hB, div_le_div_iff_of_pos_right hx0]
          nlinarith
        refine ⟨le_max_left _ _, max_le ?_ ?_, hle1, ?_⟩
        · have : 0 ≤ 1 / 2 / x := by positivity
          linarith
        · rw [hA, div_le_div_iff_of_pos_right hx0]
          nlinarith
        · intro mu m1 m2
          exact ⟨hBA mu (m2.trans hleB), hAB mu ((le_max_right _ _).trans m1), fun _ => hlow mu m2⟩
      · rw [if_neg ch]
        refine ⟨le_max_left _ _, c3.le, min_le_left _ _, ?_⟩
        intro mu m1 m2
        refine ⟨hBA mu (m2.trans (min_le_right _ _)), hAB mu ((le_max_right _ _).trans m1), ?_⟩
        intro hh
        simp only [hh, Bool.true_and, le_real, not_le] at ch
        have : mu ≤ 1 := m2.trans (min_le_left _ _)
        nlinarith
    · intro hh mu m1 m2 hout
      subst hh
      simp only [Bool.false_and, Bool.false_eq_true, if_false] at hout
      rcases hout _ _ rfl with h | h
      · rcases lt_max_iff.mp h with h | h
        · linarith
        · exact Or.inr (hAB' _ h.le)
      · rcases min_lt_iff.mp h with h | h
        · linarith
        · exact Or.inl (hBA' _ h.le)

/-- Non-vacuity: three nodes, half-plane mode, a range is chosen. -/
example : ∃ r, muRange true [(1 / 2 : ℝ), 1, 3] 3 1 = .ok (some r) ∧ r = (-1, 1 / 2) := by
  refine ⟨_, ?_, rfl⟩
  norm_num [muRange, rd, subSize, sizeMod, cMax, cMin, Histo.lt, Histo.le]

example : ∀ y ∈ [(1 / 2 : ℝ), 1, 3], 0 < y := by norm_num

end Verif
