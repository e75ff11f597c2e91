import Verif.Props.LoopLimit
import Verif.Props.GaussError
import Verif.Props.LinMode
import Verif.Model.NodesCall

/-!
# C79: the root search of `nodes_weights_gauss_legendre`

C13, C14 and C67 take the outcome of the search as given.  Here the search itself is followed, for every number of nodes: the cosine it
starts from, the Newton steps, where it ends and how far the arrays are from those of the exact rule.  Arithmetic is exact.
-/

open Polynomial

namespace Verif

/-- The zeros of the Legendre polynomial of degree `n`, from the largest down. -/
structure ZerosDown (n : ℕ) (P : ℝ[X]) (z : ℕ → ℝ) : Prop where
  anti : ∀ i j, i < j → j < n → z j < z i
  inside : ∀ i < n, -1 < z i ∧ z i < 1
  zero : ∀ i < n, P.eval (z i) = 0

theorem ZerosDown.legRoots {n : ℕ} {P : ℝ[X]} (hP : IsLegendre n P) {z : ℕ → ℝ} (h : ZerosDown n P z) : LegRoots n z :=
  ⟨h.anti, fun i hi => (h.inside i hi).1, fun i hi => (h.inside i hi).2, fun i hi => by rw [← hP.unique]; exact h.zero i hi⟩

/-- C79: there are `n` zeros, and no more. -/
theorem C79_zeros {n : ℕ} {P : ℝ[X]} (hP : IsLegendre n P) : ∃ z, ZerosDown n P z ∧ ∀ t, P.eval t = 0 → ∃ i < n, t = z i := by
  obtain ⟨z, h⟩ := legRoots_exist n
  have hd : ZerosDown n P z := ⟨h.anti, fun i hi => ⟨h.gt i hi, h.lt i hi⟩, fun i hi => by rw [hP.unique]; exact h.zero i hi⟩
  refine ⟨z, hd, fun t ht => ?_⟩
  by_contra hne
  push Not at hne
  have hP0 : P ≠ 0 := fun h0 => by have := hP.one; rw [h0] at this; simp at this
  have hinj : Set.InjOn z (Finset.range n) := fun i hi j hj e => by
    simp only [Finset.coe_range, Set.mem_Iio] at hi hj
    rcases lt_trichotomy i j with c | c | c
    · exact absurd e (h.anti i j c hj).ne'
    · exact c
    · exact absurd e (h.anti j i c hi).ne
  have hsub : insert t ((Finset.range n).image z) ⊆ P.roots.toFinset := by
    intro s hs
    rw [Multiset.mem_toFinset, mem_roots hP0, IsRoot.def]
    rcases Finset.mem_insert.1 hs with rfl | hs
    · exact ht
    · obtain ⟨i, hi, rfl⟩ := Finset.mem_image.1 hs
      exact hd.zero i (Finset.mem_range.1 hi)
  have h1 := Finset.card_le_card hsub
  rw [Finset.card_insert_of_notMem (fun hm => by
    obtain ⟨i, hi, e⟩ := Finset.mem_image.1 hm
    exact hne i (Finset.mem_range.1 hi) e.symm), Finset.card_image_of_injOn hinj, Finset.card_range] at h1
  have h2 := (Multiset.toFinset_card_le P.roots).trans (card_roots' P)
  rw [natDegree_eq_of_degree_eq_some hP.degree] at h2
  omega

/-- C79: the search for index `i` starts at or above the zero of that index, below the next larger one, and at a relative distance of at
most `1/(8 (n+1/2)²)`. -/
theorem C79_start {n : ℕ} {P : ℝ[X]} (hP : IsLegendre n P) {z : ℕ → ℝ} (h : ZerosDown n P z) {i : ℕ} (hi : i < (n + 1) / 2) :
    z i ≤ Real.cos (Real.pi * (i + 3 / 4) / (n + 1 / 2)) ∧
    Real.cos (Real.pi * (i + 3 / 4) / (n + 1 / 2)) - z i ≤ z i / (8 * (n + 1 / 2) ^ 2) ∧
    ∀ j < i, Real.cos (Real.pi * (i + 3 / 4) / (n + 1 / 2)) < z j := by
  have hl := h.legRoots hP
  obtain ⟨h1, h2⟩ := hl.start (i := i) (by omega)
  refine ⟨h1, h2, fun j hj => ?_⟩
  obtain ⟨m, rfl⟩ : ∃ m, i = m + 1 := ⟨i - 1, by omega⟩
  have h3 := hl.start_lt (i := m) (by omega)
  have h4 : z m ≤ z j := by
    rcases (by omega : j = m ∨ j < m) with c | c
    · rw [c]
    · exact (h.anti j m c (by omega)).le
  exact h3.trans_le h4

/-- C79: the loop ends after at most five Newton steps (six tests of its condition), whatever is left in `pp`, on a number at or above the
zero by at most `1/17` of the tolerance, and by at most the square of the tolerance times `(n+1/2)²/3.5`; the derivative it leaves
is larger than the derivative at the zero, by a relative amount of at most the tolerance times `(n+1/2)²`. -/
theorem C79_search {n : ℕ} {P : ℝ[X]} (hP : IsLegendre n P) {z : ℕ → ℝ} (h : ZerosDown n P z) {i : ℕ} (hi : i < (n + 1) / 2) :
    ∃ x d : ℝ, (∀ fuel pp, 6 ≤ fuel → root fuel n i pp = some (x, d)) ∧ z i ≤ x ∧ x - z i ≤ 3 / 10 ^ 14 / 17 ∧
      x - z i ≤ (n + 1 / 2) ^ 2 / 2 * (3 / 10 ^ 14) ^ 2 ∧ d ≠ 0 ∧ 0 ≤ 1 - (derivative P).eval (z i) / d ∧
      1 - (derivative P).eval (z i) / d ≤ (n + 1 / 2) ^ 2 * (3 / 10 ^ 14) := by
  obtain ⟨⟨x, d⟩, h1, h2⟩ := (h.legRoots hP).search (i := i) (by omega)
  have he : (eps : ℝ) = 3 / 10 ^ 14 := by norm_num [eps, lit_real]
  have hb := bend_le n i
  have hN : (0 : ℝ) < (n + 1 / 2) ^ 2 := by positivity
  rw [← he, hP.unique]
  have hp := eps_pos
  refine ⟨x, d, h1, h2.ge, h2.le, h2.sq.trans ?_, h2.nz, h2.slope, h2.slope'.trans ?_⟩
  · have := mul_le_mul_of_nonneg_right hb (sq_nonneg (18 / 17 * eps : ℝ))
    nlinarith [mul_pos hN (pow_pos hp 2)]
  · have := mul_le_mul_of_nonneg_right hb hp.le
    nlinarith [mul_pos hN hp]

/-- C79: any search that ends returns the same, so that `Found` is what the routine uses. -/
theorem C79_unique {n i f f' : ℕ} {pp pp' : ℝ} {r r' : ℝ × ℝ} (h : root f n i pp = some r) (h' : root f' n i pp' = some r') : r = r' := by
  have := root_unique (f := f) (f' := f') (pp := pp) (pp' := pp') (n := n) (i := i) (by rw [h]; rfl) (by rw [h']; rfl)
  rwa [h, h', Option.some.injEq] at this

theorem searchFrom_found {n fuel : ℕ} (hf : 6 ≤ fuel) : ∀ m ii (pp : ℝ), ii + m ≤ (n + 1) / 2 →
    ∃ l : List (ℝ × ℝ), searchFrom fuel n m ii pp = some l ∧ l.length = m ∧ ∀ j < m, ∃ fuel pp, root fuel n (ii + j) pp = some (l.getD j 0) := by
  obtain ⟨z, hz⟩ := legRoots_exist n
  intro m
  induction m with
  | zero => exact fun ii pp _ => ⟨[], rfl, rfl, by simp⟩
  | succ m ih =>
    intro ii pp hm
    obtain ⟨r, hr, -⟩ := hz.search (i := ii) (by omega)
    obtain ⟨l, h1, h2, h3⟩ := ih (ii + 1) r.2 (by omega)
    refine ⟨r :: l, ?_, by simp [h2], fun j hj => ?_⟩
    · unfold searchFrom
      rw [hr fuel pp hf]
      simp only [Option.bind_eq_bind, Option.bind_some, h1]
    · rcases j with _ | j
      · exact ⟨fuel, pp, hr fuel pp hf⟩
      · obtain ⟨f', p', h⟩ := h3 j (by omega)
        exact ⟨f', p', by rw [show ii + (j + 1) = ii + 1 + j by ring, h]; simp⟩

/-- C79: the whole call is `nodesWeights` on roots that are found. -/
theorem C79_call_found (n : ℕ) : ∃ rt, Found n rt ∧ ∀ fuel (a b : ℝ) x w, 6 ≤ fuel →
    nodesCall fuel a b x w n = some (nodesWeights rt a b x w n) := by
  obtain ⟨l, h1, h2, h3⟩ := searchFrom_found (n := n) (fuel := 6) le_rfl ((n + 1) / 2) 0 (Histo.lit 0) (by omega)
  refine ⟨fun ii => l.getD ii 0, fun i hi => by have := h3 i hi; rwa [zero_add] at this, fun fuel a b x w hf => ?_⟩
  obtain ⟨l', h1', h2', h3'⟩ := searchFrom_found (n := n) hf ((n + 1) / 2) 0 (Histo.lit 0) (by omega)
  have e : l' = l := by
    refine List.ext_getElem (by rw [h2, h2']) fun i hi hi' => ?_
    obtain ⟨f1, p1, a1⟩ := h3 i (by omega)
    obtain ⟨f2, p2, a2⟩ := h3' i (by omega)
    have := C79_unique a2 a1
    rwa [List.getD_eq_getElem?_getD, List.getD_eq_getElem?_getD, List.getElem?_eq_getElem hi, List.getElem?_eq_getElem hi'] at this
  subst e
  unfold nodesCall
  rw [h1']
  simp only [Option.bind_eq_bind, Option.bind_some, lit_real]
  norm_num
  rfl

/-- The exact rule on `[a,b]`: abscissa and weight of cell `i`, from the smallest up. -/
noncomputable def exactNode (z : ℕ → ℝ) (n : ℕ) (a b : ℝ) (i : ℕ) : ℝ := (a + b) / 2 + (b - a) / 2 * z (n - 1 - i)

noncomputable def exactWeight (P : ℝ[X]) (z : ℕ → ℝ) (n : ℕ) (a b : ℝ) (i : ℕ) : ℝ :=
  (b - a) / ((1 - z (n - 1 - i) ^ 2) * (derivative P).eval (z (n - 1 - i)) ^ 2)

/-- The cells of the rule found against the exact ones. -/
theorem Found.exact {n : ℕ} {rt : ℕ → ℝ × ℝ} (hf : Found n rt) {P : ℝ[X]} (hP : IsLegendre n P) {z : ℕ → ℝ} (h : ZerosDown n P z) {a b : ℝ}
    (hab : a ≤ b) {i : ℕ} (hi : i < n) : 0 ≤ exactWeight P z n a b i ∧ |nodeAt rt a b n i - exactNode z n a b i| ≤ (b - a) / 2 * (3 / 10 ^ 14 / 17) ∧
      |weightAt rt a b n i - exactWeight P z n a b i| ≤ exactWeight P z n a b i * (2 * (n + 1 / 2) ^ 2 * (3 / 10 ^ 14)) := by
  have he : (eps : ℝ) = 3 / 10 ^ 14 := by norm_num [eps, lit_real]
  have hl := h.legRoots hP
  have hex := hl.exact
  obtain ⟨c1, -, -, c2⟩ := hf.cell hl hi
  rw [he] at c1 c2
  have e1 : nodeAt (fun i => (z i, (derivative (leg n)).eval (z i))) (-1) 1 n i = z (n - 1 - i) := by
    rw [node_fold]
    split_ifs with c
    · simp only [hl.mirror hi]; ring
    · simp
  have e2 : weightAt (fun i => (z i, (derivative (leg n)).eval (z i))) a b n i = exactWeight P z n a b i := by
    rw [weightAt_ref _ n hex.pp a b i hi, e1, exactWeight, hP.unique]
    ring
  have h0 := hex.weight_nonneg hab i hi
  rw [e2] at h0
  refine ⟨h0, ?_, ?_⟩
  · rw [nodeAt_ref, exactNode, show (b + a) / 2 + (b - a) / 2 * nodeAt rt (-1) 1 n i - ((a + b) / 2 + (b - a) / 2 * z (n - 1 - i)) =
      (b - a) / 2 * (nodeAt rt (-1) 1 n i - z (n - 1 - i)) by ring, abs_mul, abs_of_nonneg (by linarith)]
    rw [e1] at c1
    exact mul_le_mul_of_nonneg_left c1 (by linarith)
  · rw [← e2, weightAt_scale rt, weightAt_scale _ n a b i, ← mul_sub, abs_mul, abs_of_nonneg (by linarith), mul_assoc]
    exact mul_le_mul_of_nonneg_left c2 (by linarith)

/-- C79: for every number of nodes the call ends, writes every cell, with ascending abscissae inside the interval and positive weights,
each abscissa within `(b-a)/2` times `1/17` of the tolerance of the exact one and each weight within a relative `2 (n+1/2)²` times
the tolerance. -/
theorem C79_call {n : ℕ} (hn : n < 2 ^ 63) {P : ℝ[X]} (hP : IsLegendre n P) {z : ℕ → ℝ} (h : ZerosDown n P z) {a b : ℝ} (hab : a < b)
    {x w : Buf ℝ} (hx : x.length = n) (hw : w.length = n) : ∃ ys vs : List ℝ,
      (∀ fuel, 6 ≤ fuel → nodesCall fuel a b x w n = some (.ok (ys.map some, vs.map some))) ∧ ys.length = n ∧ vs.length = n ∧
      ys.Pairwise (· < ·) ∧ (∀ y ∈ ys, a < y ∧ y < b) ∧ (∀ v ∈ vs, 0 < v) ∧
      ∀ i < n, |ys.getD i 0 - exactNode z n a b i| ≤ (b - a) / 2 * (3 / 10 ^ 14 / 17) ∧
        |vs.getD i 0 - exactWeight P z n a b i| ≤ exactWeight P z n a b i * (2 * (n + 1 / 2) ^ 2 * (3 / 10 ^ 14)) := by
  obtain ⟨rt, hf, hc⟩ := C79_call_found n
  have hnr := hf.nearRoots
  refine ⟨(List.range n).map (nodeAt rt a b n), (List.range n).map (weightAt rt a b n), fun fuel hfu => ?_, by simp, by simp, ?_, ?_, ?_, ?_⟩
  · rw [hc fuel a b x w hfu, nodesWeights_eq rt a b x w n hn hx hw]
  · rw [List.pairwise_map]
    refine (List.pairwise_lt_range (n := n)).imp_of_mem fun ha hb hlt => ?_
    rw [nodeAt_ref rt n a b, nodeAt_ref rt n a b]
    have := hnr.asc _ _ hlt (by simpa using hb)
    nlinarith
  · intro y hy
    obtain ⟨i, hi, rfl⟩ := List.mem_map.1 hy
    rw [nodeAt_ref rt n a b]
    obtain ⟨h1, h2⟩ := hnr.inside i (by simpa using hi)
    constructor <;> nlinarith
  · intro v hv
    obtain ⟨i, hi, rfl⟩ := List.mem_map.1 hv
    have hi : i < n := by simpa using hi
    have hl := h.legRoots hP
    have hj := fold_le hi
    rw [weightAt_scale, weight_fold]
    set j := if 2 * i + 1 < n then i else n - 1 - i
    have near := hf.near hl hj
    have h1 := near.lt_one hj
    have h2 := (hl.half hj).1.trans near.ge
    have h3 := near.nz
    refine mul_pos (by linarith) (div_pos two_pos ?_)
    rw [mul_assoc]
    exact mul_pos (by nlinarith) (mul_self_pos.2 h3)
  · intro i hi
    have := hf.exact hP h hab.le hi
    simp only [List.getD_eq_getElem?_getD, List.getElem?_map, List.getElem?_range hi, Option.map_some, Option.getD_some]
    exact this.2

/-- What the whole call gives when the two arrays are used as a rule for `f`. -/
def WholeSum (fuel n : ℕ) (a b : ℝ) (x w : Buf ℝ) (f : ℝ → ℝ) (S : ℝ) : Prop :=
  ∃ ys vs : List ℝ, nodesCall fuel a b x w n = some (.ok (ys.map some, vs.map some)) ∧ S = (List.zipWith (fun y v => v * f y) ys vs).sum

/-- Sums over the rule found and over the exact one. -/
theorem Found.sum_error {n : ℕ} {rt : ℕ → ℝ × ℝ} (hf : Found n rt) (h1 : 1 ≤ n) {a b : ℝ} (hab : a ≤ b) {f : ℝ → ℝ} {M L : ℝ}
    (hM : ∀ t ∈ Set.Icc a b, |f t| ≤ M) (hL : ∀ s ∈ Set.Icc a b, ∀ t ∈ Set.Icc a b, |f s - f t| ≤ L * |s - t|) :
    ∃ ex, ExactRoots n ex ∧ |gsum rt n a b f - gsum ex n a b f| ≤ (b - a) * (2 * (n + 1 / 2) ^ 2 * M + L * (b - a) / 34) * (3 / 10 ^ 14) := by
  obtain ⟨z, hz⟩ := legRoots_exist n
  have he : (eps : ℝ) = 3 / 10 ^ 14 := by norm_num [eps, lit_real]
  set ex := fun i => (z i, (derivative (leg n)).eval (z i)) with hexd
  have hex : ExactRoots n ex := hz.exact
  refine ⟨ex, hex, ?_⟩
  have hM0 : 0 ≤ M := (abs_nonneg _).trans (hM a ⟨le_rfl, hab⟩)
  have cell : ∀ i ∈ Finset.range n, |weightAt rt a b n i * f (nodeAt rt a b n i) - weightAt ex a b n i * f (nodeAt ex a b n i)| ≤
      weightAt ex a b n i * ((2 * (n + 1 / 2) ^ 2 * M + L * (b - a) / 34) * (3 / 10 ^ 14)) := fun i hi => by
    have hi := Finset.mem_range.1 hi
    obtain ⟨c1, -, -, c2⟩ := hf.cell hz hi
    rw [he] at c1 c2
    have m1 := hf.nearRoots.node_mem hab i hi
    have m2 := hex.node_mem hab i hi
    have w0 := hex.weight_nonneg hab i hi
    have d1 : |nodeAt rt a b n i - nodeAt ex a b n i| ≤ (b - a) / 2 * (3 / 10 ^ 14 / 17) := by
      rw [nodeAt_ref rt n a b, nodeAt_ref ex n a b, show (b + a) / 2 + (b - a) / 2 * nodeAt rt (-1) 1 n i -
        ((b + a) / 2 + (b - a) / 2 * nodeAt ex (-1) 1 n i) = (b - a) / 2 * (nodeAt rt (-1) 1 n i - nodeAt ex (-1) 1 n i) by ring, abs_mul,
        abs_of_nonneg (by linarith)]
      exact mul_le_mul_of_nonneg_left c1 (by linarith)
    have d2 : |weightAt rt a b n i - weightAt ex a b n i| ≤ weightAt ex a b n i * (2 * (n + 1 / 2) ^ 2 * (3 / 10 ^ 14)) := by
      rw [weightAt_scale rt, weightAt_scale ex, ← mul_sub, abs_mul, abs_of_nonneg (by linarith), mul_assoc]
      exact mul_le_mul_of_nonneg_left c2 (by linarith)
    have L0 : 0 ≤ L * |nodeAt rt a b n i - nodeAt ex a b n i| := (abs_nonneg _).trans (hL _ m1 _ m2)
    have hLd : L * |nodeAt rt a b n i - nodeAt ex a b n i| ≤ L * ((b - a) / 2 * (3 / 10 ^ 14 / 17)) := by
      rcases eq_or_lt_of_le hab with c | c
      · have : |nodeAt rt a b n i - nodeAt ex a b n i| = 0 :=
          le_antisymm (d1.trans (by rw [sub_eq_zero.2 c.symm]; norm_num)) (abs_nonneg _)
        rw [this, ← c]
        simp
      · have hL0 : 0 ≤ L := by
          have := (abs_nonneg _).trans (hL b ⟨hab, le_rfl⟩ a ⟨le_rfl, hab⟩)
          rw [abs_of_pos (by linarith)] at this
          exact nonneg_of_mul_nonneg_left this (by linarith)
        exact mul_le_mul_of_nonneg_left d1 hL0
    rw [show weightAt rt a b n i * f (nodeAt rt a b n i) - weightAt ex a b n i * f (nodeAt ex a b n i) =
      f (nodeAt rt a b n i) * (weightAt rt a b n i - weightAt ex a b n i) + weightAt ex a b n i * (f (nodeAt rt a b n i) - f (nodeAt ex a b n i)) by ring]
    refine (abs_add_le _ _).trans ?_
    rw [abs_mul, abs_mul, abs_of_nonneg w0]
    have p1 := mul_le_mul (hM _ m1) d2 (abs_nonneg _) hM0
    have p2 := mul_le_mul_of_nonneg_left ((hL _ m1 _ m2).trans hLd) w0
    calc _ ≤ _ := add_le_add p1 p2
      _ = _ := by ring
  unfold gsum
  rw [← Finset.sum_sub_distrib]
  refine ((Finset.abs_sum_le_sum_abs _ _).trans (Finset.sum_le_sum cell)).trans (le_of_eq ?_)
  rw [← Finset.sum_mul, hex.weight_sum h1]
  ring

theorem wholeSum {n fuel : ℕ} (hn : n < 2 ^ 63) (hf : 6 ≤ fuel) {rt : ℕ → ℝ × ℝ}
    (hc : ∀ fuel (a b : ℝ) x w, 6 ≤ fuel → nodesCall fuel a b x w n = some (nodesWeights rt a b x w n)) (a b : ℝ) (x w : Buf ℝ) (hx : x.length = n)
    (hw : w.length = n) (f : ℝ → ℝ) : WholeSum fuel n a b x w f (gsum rt n a b f) := by
  obtain ⟨ys, vs, h1, h2⟩ := (callSum rt n hn a b x w hx hw f (gsum rt n a b f)).2 rfl
  exact ⟨ys, vs, by rw [hc fuel a b x w hf, h1], h2⟩

/-- C79: integration with the arrays of a whole call.  To the error of the exact rule (C67) the search adds at most
`(b-a) (2 (n+1/2)² M + L (b-a)/34)` times the tolerance, for integrands bounded by `M` with Lipschitz constant `L`. -/
theorem C79_integral {n : ℕ} (h1 : 1 ≤ n) (hn : n < 2 ^ 63) {a b : ℝ} (hab : a ≤ b) {x w : Buf ℝ} (hx : x.length = n) (hw : w.length = n)
    {f : ℝ → ℝ} (hf : IntervalIntegrable f MeasureTheory.volume a b) {p : ℝ[X]} (hp : p.degree < ((2 * n : ℕ) : WithBot ℕ)) {d M L : ℝ}
    (hd : ∀ t ∈ Set.Icc a b, |f t - p.eval t| ≤ d) (hM : ∀ t ∈ Set.Icc a b, |f t| ≤ M)
    (hL : ∀ s ∈ Set.Icc a b, ∀ t ∈ Set.Icc a b, |f s - f t| ≤ L * |s - t|) :
    ∃ S, (∀ fuel, 6 ≤ fuel → WholeSum fuel n a b x w f S) ∧
      |S - ∫ t in a..b, f t| ≤ 2 * (b - a) * d + (b - a) * (2 * (n + 1 / 2) ^ 2 * M + L * (b - a) / 34) * (3 / 10 ^ 14) := by
  obtain ⟨rt, hfd, hc⟩ := C79_call_found n
  obtain ⟨ex, hex, hs⟩ := hfd.sum_error h1 hab hM hL
  have he := hex.error h1 hab f hf p hp d hd
  refine ⟨gsum rt n a b f, fun fuel hfu => wholeSum hn hfu hc a b x w hx hw f, ?_⟩
  have := abs_sub_le (gsum rt n a b f) (gsum ex n a b f) (∫ t in a..b, f t)
  linarith

/-- C79: for continuous integrands the sums over the arrays of whole calls tend to the integral as the number of nodes grows.  (The sequence
goes on beyond the sizes that the machine integers admit.) -/
theorem C79_limit {a b : ℝ} (hab : a ≤ b) {f : ℝ → ℝ} (hf : ContinuousOn f (Set.Icc a b)) :
    ∃ S : ℕ → ℝ, Filter.Tendsto S Filter.atTop (nhds (∫ t in a..b, f t)) ∧
      ∀ n, n < 2 ^ 63 → ∀ fuel (x w : Buf ℝ), 6 ≤ fuel → x.length = n → w.length = n → WholeSum fuel n a b x w f (S n) := by
  choose rt hrt hc using C79_call_found
  exact ⟨fun n => gsum (rt n) n a b f, (C67_limit (fun n => (hrt n).nearRoots) hab hf).1,
    fun n hn fuel x w hfu hx hw => wholeSum hn hfu (hc n) a b x w hx hw f⟩

/-- C79: the roots found are near enough for the limits C68, C71, C72, C73 and for C75 and C77, and in order, as C30 and C62 require. -/
theorem C79_near {n : ℕ} {rt : ℕ → ℝ × ℝ} (hf : Found n rt) : NearRoots n rt ∧ (n < 2 ^ 63 → RootsOrdered rt n) :=
  ⟨hf.nearRoots, nearRoots_ordered hf.nearRoots⟩

/-! ## Concrete cases -/

/-- The zeros of the default numbers of nodes exist. -/
example : ∃ z, ZerosDown 200 (leg 200) z := (C79_zeros (leg_isLegendre 200)).imp fun _ h => h.1

/-- The search for the largest of 200 zeros. -/
example : ∃ z x d : ℝ, (leg 200).eval z = 0 ∧ root 6 200 0 0 = some (x, d) ∧ |x - z| ≤ 2 / 10 ^ 15 := by
  obtain ⟨z, hz, -⟩ := C79_zeros (leg_isLegendre 200)
  obtain ⟨x, d, h1, h2, h3, -⟩ := C79_search (leg_isLegendre 200) hz (i := 0) (by norm_num)
  refine ⟨z 0, x, d, hz.zero 0 (by norm_num), h1 6 0 le_rfl, ?_⟩
  rw [abs_of_nonneg (by linarith)]
  exact h3.trans (by norm_num)

/-- The arrays for 10 nodes on `[0,2]`. -/
example : ∃ ys vs : List ℝ, nodesCall 6 (0 : ℝ) 2 (malloc ℝ 10) (malloc ℝ 10) 10 = some (.ok (ys.map some, vs.map some)) ∧
    ys.Pairwise (· < ·) ∧ ∀ v ∈ vs, 0 < v := by
  obtain ⟨z, hz, -⟩ := C79_zeros (leg_isLegendre 10)
  obtain ⟨ys, vs, h1, -, -, h4, -, h6, -⟩ := C79_call (by norm_num) (leg_isLegendre 10) hz (a := 0) (b := 2) (by norm_num) (x := malloc ℝ 10)
    (w := malloc ℝ 10) (by simp [malloc]) (by simp [malloc])
  exact ⟨ys, vs, h1 6 le_rfl, h4, h6⟩

/-- With one node the midpoint is exact: the search starts on the zero. -/
example : root 6 1 0 (0 : ℝ) = some (0, 1) := by
  have hc : Real.cos (Real.pi * (3 / 4) / (1 + 2⁻¹)) = 0 := by
    rw [show Real.pi * (3 / 4) / (1 + 2⁻¹) = Real.pi / 2 by ring, Real.cos_pi_div_two]
  have hp := eps_pos
  have h1 : (eps : ℝ) < |eps + 1| := by rw [abs_of_pos (by linarith)]; linarith
  have h2 : |-1 + -(eps : ℝ)| = |eps + 1| := by rw [← abs_neg]; ring_nf
  simp [root, newton, legendrePair, legendreDeriv, legendreLoop, hc, h2, h1, hp.le]

/-- The identity on `[0,1]` with two nodes, to 10 digits. -/
example : ∃ S, WholeSum 6 2 0 1 (malloc ℝ 2) (malloc ℝ 2) (fun t => t) S ∧ |S - 1 / 2| ≤ 1 / 10 ^ 12 := by
  obtain ⟨S, h1, h2⟩ := C79_integral (n := 2) (by norm_num) (by norm_num) (zero_le_one) (x := malloc ℝ 2) (w := malloc ℝ 2) (by simp [malloc])
    (by simp [malloc]) (f := fun t => t) (continuous_id.intervalIntegrable _ _) (p := X) (by rw [degree_X]; norm_num) (d := 0) (M := 1) (L := 1)
    (by simp) (fun t ht => by rw [abs_of_nonneg ht.1]; exact ht.2) (by simp)
  refine ⟨S, h1 6 le_rfl, ?_⟩
  norm_num [integral_id] at h2
  exact h2.trans (by norm_num)

example : ∃ S : ℕ → ℝ, Filter.Tendsto S Filter.atTop (nhds (∫ t in (-1 : ℝ)..2, |t|)) ∧ WholeSum 6 7 (-1) 2 (malloc ℝ 7) (malloc ℝ 7) (fun t => |t|) (S 7) := by
  obtain ⟨S, h1, h2⟩ := C79_limit (a := -1) (b := 2) (by norm_num) (f := fun t => |t|) continuous_abs.continuousOn
  exact ⟨S, h1, h2 7 (by norm_num) 6 _ _ le_rfl (by simp [malloc]) (by simp [malloc])⟩

/-- The environment of the runs in `lin` mode, with the roots that the code finds. -/
example : ∃ rt : ℕ → ℕ → ℝ × ℝ, (∀ n, Found n (rt n)) ∧ (linEnv rt).LinOk := by
  choose rt hr using found_exist
  exact ⟨rt, hr, linEnv_ok fun n hn => (C79_near (hr n)).2 hn⟩

end Verif
