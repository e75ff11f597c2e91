import Verif.Model.Python

/-!
# C32, C33: growth factor, rescaling and the two assemblies
-/

namespace Verif

open Terms

/-! ## C32 -/

theorem mapM_scale {c : PyClass} {s : ℝ} : ∀ {l l' : List (String × List ℝ)}, l.mapM (scaleCol c s) = some l' →
    ∀ key n, c.scale.lookup key = some n → l'.lookup key = (l.lookup key).map (·.map (· * s ^ (2 * n)))
  | [], l', h, key, n, hn => by
      simp only [List.mapM_nil, Option.pure_def, Option.some.injEq] at h
      subst h; rfl
  | (a, v) :: l, l', h, key, n, hn => by
      rw [List.mapM_cons] at h
      simp only [Option.pure_def, Option.bind_eq_bind, Option.bind_eq_some_iff, Option.some.injEq] at h
      obtain ⟨p, hp, l1, hl1, rfl⟩ := h
      have ih := mapM_scale hl1 key n hn
      unfold scaleCol at hp
      split at hp
      · rename_i m hm
        simp only [Option.some.injEq] at hp
        subst hp
        by_cases hk : key = a
        · subst hk
          rw [hn] at hm
          simp only [Option.some.injEq] at hm
          subst hm
          simp
        · have : (key == a) = false := by simpa using hk
          simp only [List.lookup, this]
          exact ih
      · cases hp

/-- Rescaling multiplies each named column by the power of its class table. -/
theorem C32_rescale_val (c : PyClass) (s : ℝ) (t t' : Terms) (h : t.rescale c s = some t') (key : String) (n : ℕ)
    (hn : c.scale.lookup key = some n) (i : ℕ) : t'.val key i = t.val key i * s ^ (2 * n) := by
  unfold Terms.rescale at h
  rw [Option.map_eq_some_iff] at h
  obtain ⟨l, hl, rfl⟩ := h
  have := mapM_scale hl key n hn
  unfold Terms.val Terms.get
  rw [this]
  cases t.cols.lookup key with
  | none => simp
  | some v =>
    simp only [Option.map_some, Option.getD_some, List.getD_eq_getElem?_getD, List.getElem?_map]
    cases v[i]? <;> simp

/-- A container whose columns are fields of its class can always be rescaled. -/
theorem C32_rescale_total (c : PyClass) (s : ℝ) (t : Terms) (h : ∀ kv ∈ t.cols, kv.1 ∈ c.scale.map (·.1)) :
    ∃ t', t.rescale c s = some t' := by
  obtain ⟨l⟩ := t
  have key : ∀ l : List (String × List ℝ), (∀ kv ∈ l, kv.1 ∈ c.scale.map (·.1)) → ∃ l', l.mapM (scaleCol c s) = some l' := by
    intro l
    induction l with
    | nil => intro _; exact ⟨[], rfl⟩
    | cons a l ih =>
      intro h
      obtain ⟨l', hl'⟩ := ih (fun kv hkv => h kv (List.mem_cons_of_mem _ hkv))
      have hm : ∃ n, c.scale.lookup a.1 = some n := by
        have := h a List.mem_cons_self
        generalize c.scale = sc at this
        induction sc with
        | nil => simp at this
        | cons b sc ih2 =>
          by_cases hb : a.1 = b.1
          · exact ⟨b.2, by simp [List.lookup, hb]⟩
          · have hb' : (a.1 == b.1) = false := by simpa using hb
            simp only [List.lookup, hb']
            apply ih2
            simpa [hb] using this
      obtain ⟨n, hn⟩ := hm
      exact ⟨(a.1, a.2.map (· * s ^ (2 * n))) :: l', by rw [List.mapM_cons, hl']; simp [scaleCol, hn]⟩
  obtain ⟨l', hl'⟩ := key l h
  exact ⟨⟨l'⟩, by simp [Terms.rescale, hl']⟩

/-- Every field of every class has a scaling power, and no other name has one. -/
theorem C32_scale_tables (c : PyClass) (hc : c ∈ [clsLin, cls1, cls2, clsBias, clsA, clsB]) :
    c.scale.map (·.1) = c.fields := by
  fin_cases hc <;> decide

theorem scaleCol_scaleCol (c : PyClass) (s r : ℝ) (kv : String × List ℝ) :
    (scaleCol c s kv).bind (scaleCol c r) = scaleCol c (s * r) kv := by
  cases hn : c.scale.lookup kv.1 with
  | none => simp [scaleCol, hn]
  | some n =>
    simp only [scaleCol, hn, Option.bind_some, List.map_map]
    have : ((fun x => x * r ^ (2 * n)) ∘ fun x => x * s ^ (2 * n)) = fun x : ℝ => x * (s * r) ^ (2 * n) := by
      funext x; simp only [Function.comp]; rw [mul_pow]; ring
    rw [this]

theorem mapM_bind_mapM {β : Type} (f g : β → Option β) : ∀ l : List β,
    (l.mapM f).bind (fun l' => l'.mapM g) = l.mapM fun x => (f x).bind g
  | [] => rfl
  | a :: l => by
      rw [List.mapM_cons, List.mapM_cons, ← mapM_bind_mapM f g l]
      cases hf : f a with
      | none => rfl
      | some b =>
        cases hl : l.mapM f with
        | none => cases g b <;> simp
        | some l' => simp

/-- Two successive rescalings are one, for every container. -/
theorem C32_rescale_rescale (c : PyClass) (s r : ℝ) (t : Terms) :
    (t.rescale c s).bind (fun t' => t'.rescale c r) = t.rescale c (s * r) := by
  have h := mapM_bind_mapM (scaleCol c s) (scaleCol c r) t.cols
  simp only [scaleCol_scaleCol] at h
  change _ = List.mapM (scaleCol c (s * r)) t.cols at h
  unfold Terms.rescale
  rw [← h]
  cases t.cols.mapM (scaleCol c s) <;> rfl

/-- One-loop spectrum: rescaling the terms is the same as passing the growth factor. -/
theorem C32_pk1 (s D : ℝ) (t t' : Terms) (h : t.rescale cls1 s = some t') (i : ℕ) :
    pk1 t' D none i = pk1 t (s * D) none i := by
  have e := fun key n hn => C32_rescale_val cls1 s t t' h key n hn i
  have e1 := e "k" 0 rfl
  have e2 := e "pk_lin" 1 rfl
  have e3 := e "sigmad2" 1 rfl
  have e4 := e "gamma1a_1loop" 1 rfl
  have e5 := e "gamma1b_1loop" 1 rfl
  have e6 := e "pk_gamma2_tree_tree" 2 rfl
  unfold pk1
  simp only [e1, e2, e3, e4, e5, e6]
  have hf : 0.5 * (t.val "k" i * s ^ (2 * 0) * D) ^ 2 * (t.val "sigmad2" i * s ^ (2 * 1))
      = 0.5 * (t.val "k" i * (s * D)) ^ 2 * t.val "sigmad2" i := by ring
  rw [hf]
  generalize 0.5 * (t.val "k" i * (s * D)) ^ 2 * t.val "sigmad2" i = f
  ring

/-- The same with an explicit damping scale, which has to be rescaled as well. -/
theorem C32_pk1_sigma (s D : ℝ) (t t' : Terms) (h : t.rescale cls1 s = some t') (sig : ℕ → ℝ) (i : ℕ) :
    pk1 t' D (some fun i => sig i * s ^ 2) i = pk1 t (s * D) (some sig) i := by
  have e := fun key n hn => C32_rescale_val cls1 s t t' h key n hn i
  have e1 := e "k" 0 rfl
  have e2 := e "pk_lin" 1 rfl
  have e4 := e "gamma1a_1loop" 1 rfl
  have e5 := e "gamma1b_1loop" 1 rfl
  have e6 := e "pk_gamma2_tree_tree" 2 rfl
  unfold pk1
  simp only [e1, e2, e4, e5, e6]
  have hf : 0.5 * (t.val "k" i * s ^ (2 * 0) * D) ^ 2 * (sig i * s ^ 2)
      = 0.5 * (t.val "k" i * (s * D)) ^ 2 * sig i := by ring
  rw [hf]
  generalize 0.5 * (t.val "k" i * (s * D)) ^ 2 * sig i = f
  ring

/-- Two-loop spectrum: rescaling the terms is the same as passing the growth factor. -/
theorem C32_pk2 (s D : ℝ) (t t' : Terms) (h : t.rescale cls2 s = some t') (i : ℕ) :
    pk2 t' D none i = pk2 t (s * D) none i := by
  have e := fun key n hn => C32_rescale_val cls2 s t t' h key n hn i
  have e1 := e "k" 0 rfl
  have e2 := e "pk_lin" 1 rfl
  have e3 := e "sigmad2" 1 rfl
  have e4 := e "gamma1a_1loop" 1 rfl
  have e5 := e "gamma1b_1loop" 1 rfl
  have e6 := e "pk_gamma2_tree_tree" 2 rfl
  have e7 := e "gamma1a_2loop" 2 rfl
  have e8 := e "gamma1b_2loop" 2 rfl
  have e9 := e "pk_gamma2_tree_1loop" 3 rfl
  have e10 := e "pk_gamma2_1loop_1loop" 4 rfl
  have e11 := e "pk_gamma3_tree" 3 rfl
  unfold pk2
  simp only [e1, e2, e3, e4, e5, e6, e7, e8, e9, e10, e11]
  have hf : 0.5 * (t.val "k" i * s ^ (2 * 0) * D) ^ 2 * (t.val "sigmad2" i * s ^ (2 * 1))
      = 0.5 * (t.val "k" i * (s * D)) ^ 2 * t.val "sigmad2" i := by ring
  rw [hf]
  generalize 0.5 * (t.val "k" i * (s * D)) ^ 2 * t.val "sigmad2" i = f
  ring

/-- Linear spectra of every class. -/
theorem C32_pkLin (s D : ℝ) (c : PyClass) (hc : c ∈ [cls1, cls2, clsBias, clsA, clsB]) (t t' : Terms)
    (h : t.rescale c s = some t') (i : ℕ) : pkLin t' D i = pkLin t (s * D) i := by
  have hl : c.scale.lookup "pk_lin" = some 1 := by fin_cases hc <;> rfl
  unfold pkLin scaleFactor
  dsimp only
  rw [C32_rescale_val c s t t' h "pk_lin" 1 hl i]
  ring

/-- The linear spectrum container. -/
theorem C32_pkOfLin (s D : ℝ) (t t' : Terms) (h : t.rescale clsLin s = some t') (i : ℕ) :
    pkOfLin t' D i = pkOfLin t (s * D) i := by
  unfold pkOfLin scaleFactor
  dsimp only
  rw [C32_rescale_val clsLin s t t' h "pk" 1 rfl i]
  ring

/-- Bias spectra, all seven columns. -/
theorem C32_pkBias (s D : ℝ) (key : String) (hk : key ∈ ["pk_b2d", "pk_bs2d", "pk_b2t", "pk_bs2t", "pk_b22", "pk_b2s2", "pk_bs22"])
    (t t' : Terms) (h : t.rescale clsBias s = some t') (i : ℕ) : pkBias key t' D i = pkBias key t (s * D) i := by
  have hl : clsBias.scale.lookup key = some 2 := by fin_cases hk <;> rfl
  unfold pkBias scaleFactor
  dsimp only
  rw [C32_rescale_val clsBias s t t' h key 2 hl i]
  ring

/-- Damped bias spectra, all three columns. -/
theorem C32_pkBiasDamp (s D : ℝ) (key : String) (hk : key ∈ ["pk_b22", "pk_b2s2", "pk_bs22"])
    (t t' : Terms) (h : t.rescale clsBias s = some t') (i : ℕ) :
    pkBiasDamp key t' D none i = pkBiasDamp key t (s * D) none i := by
  have hl : clsBias.scale.lookup key = some 2 := by fin_cases hk <;> rfl
  unfold pkBiasDamp dampingFactor
  simp only [C32_rescale_val clsBias s t t' h key 2 hl i, C32_rescale_val clsBias s t t' h "k" 0 rfl i,
    C32_rescale_val clsBias s t t' h "sigmad2" 1 rfl i]
  have hf : 0.5 * (t.val "k" i * s ^ (2 * 0) * D) ^ 2 * (t.val "sigmad2" i * s ^ (2 * 1))
      = 0.5 * (t.val "k" i * (s * D)) ^ 2 * t.val "sigmad2" i := by ring
  rw [hf]
  generalize 0.5 * (t.val "k" i * (s * D)) ^ 2 * t.val "sigmad2" i = f
  ring

/-- The redshift-space terms. -/
theorem C32_pkAB (s D : ℝ) (c : PyClass) (hc : c ∈ [clsA, clsB]) (t t' : Terms) (h : t.rescale c s = some t') (i : ℕ) :
    pkAB t' D i = pkAB t (s * D) i := by
  have hl : c.scale.lookup "pk" = some 2 := by fin_cases hc <;> rfl
  unfold pkAB scaleFactor
  dsimp only
  rw [C32_rescale_val c s t t' h "pk" 2 hl i]
  ring

/-- `pk_sigma3sq` does not behave like that: its table power is 2 but it multiplies a column of power 1, so rescaling by 2
and passing the growth factor 2 differ by a factor 4. -/
theorem C32_sigma3sq_violation : ∃ t t' : Terms, t.rescale clsBias 2 = some t' ∧ pkSigma3sq t 2 0 = 16 ∧
    pkSigma3sq t' 1 0 = 64 := by
  refine ⟨⟨[("k", [1]), ("pk_lin", [1]), ("sigma3sq", [1])]⟩, ⟨[("k", [1]), ("pk_lin", [4]), ("sigma3sq", [16])]⟩, ?_, ?_, ?_⟩
  · simp [Terms.rescale, scaleCol, clsBias, List.lookup]; norm_num
  · simp [pkSigma3sq, scaleFactor, Terms.val, Terms.get, List.lookup]; norm_num
  · simp [pkSigma3sq, scaleFactor, Terms.val, Terms.get, List.lookup]; norm_num

/-- What `pk_sigma3sq` does instead: the rescaled object gives the growth power 3 of the linear spectrum. -/
theorem C32_sigma3sq_partial (s D : ℝ) (t t' : Terms) (h : t.rescale clsBias s = some t') (i : ℕ) :
    pkSigma3sq t' D i = s ^ 2 * pkSigma3sq t (s * D) i := by
  unfold pkSigma3sq scaleFactor
  dsimp only
  rw [C32_rescale_val clsBias s t t' h "pk_lin" 1 rfl i, C32_rescale_val clsBias s t t' h "sigma3sq" 2 rfl i]
  ring

/-- A container with all one-loop columns can be rescaled, and the values change. -/
example : ∃ t t' : Terms, t.rescale cls1 3 = some t' ∧ t.val "gamma1a_1loop" 0 = 2 ∧ t'.val "gamma1a_1loop" 0 = 18 ∧
    pk1 t' 1 none 0 ≠ pk1 t 1 none 0 := by
  refine ⟨⟨[("k", [0]), ("pk_lin", [1]), ("sigmad2", [1]), ("gamma1a_1loop", [2]), ("gamma1b_1loop", [0]),
    ("pk_gamma2_tree_tree", [1])]⟩, ⟨[("k", [0]), ("pk_lin", [9]), ("sigmad2", [9]), ("gamma1a_1loop", [18]),
    ("gamma1b_1loop", [0]), ("pk_gamma2_tree_tree", [81])]⟩, ?_, ?_, ?_, ?_⟩
  · simp [Terms.rescale, scaleCol, cls1, List.lookup]; norm_num
  · simp [Terms.val, Terms.get, List.lookup]
  · simp [Terms.val, Terms.get, List.lookup]
  · simp [pk1, Terms.val, Terms.get, List.lookup]; norm_num

/-! ## C33 -/

theorem fillLoop_ok (n : ℕ) (out : Buf ℝ) (f : ℕ → Res ℝ) (g : ℕ → ℝ) (hlen : out.length = n) (h : ∀ i < n, f i = .ok (g i)) :
    fillLoop n out f = .ok ((List.range n).map fun i => some (g i)) := by
  have hl := forRange_inv (lo := 0) (hi := n) (s := out) (body := fun i out => do let v ← f i; Buf.wr out i v)
    (P := fun i s => s.length = n ∧ ∀ j < i, s[j]? = some (some (g j))) (Nat.zero_le n) ⟨hlen, by simp⟩ (by
      intro j s _ hj ⟨hs, hp⟩
      refine ⟨s.set j (some (g j)), by simp [h j hj, Buf.wr, hs, hj], by simp [hs], ?_⟩
      intro l hl
      by_cases hlj : l = j
      · subst hlj; simp [hs, hj]
      · rw [List.getElem?_set_ne (by omega)]; exact hp l (by omega))
  obtain ⟨s, h1, h2, h3⟩ := hl
  unfold fillLoop
  rw [h1]
  congr 1
  apply List.ext_getElem?
  intro i
  by_cases hi : i < n
  · rw [h3 i hi]; simp [hi]
  · rw [List.getElem?_eq_none (by omega)]; simp; omega

theorem rd_getD {a : List ℝ} {i : ℕ} (h : i < a.length) : rd a i = .ok (a.getD i 0) := by
  rw [rd_ok h]; simp [h]

/-- The container of the Python object whose columns are the arrays of the C structure, one loop. -/
noncomputable def CTerms1.py (t : CTerms1) : Terms := ⟨[("k", t.k), ("pk_lin", t.pkLin), ("sigmad2", t.sigmad2),
  ("gamma1a_1loop", t.gamma1a), ("gamma1b_1loop", t.gamma1b), ("pk_gamma2_tree_tree", t.gamma2tt)]⟩

/-- The container of the Python object whose columns are the arrays of the C structure, two loops. -/
noncomputable def CTerms2.py (t : CTerms2) : Terms := ⟨[("k", t.k), ("pk_lin", t.pkLin), ("sigmad2", t.sigmad2),
  ("gamma1a_1loop", t.gamma1a1), ("gamma1a_2loop", t.gamma1a2), ("gamma1b_1loop", t.gamma1b1), ("gamma1b_2loop", t.gamma1b2),
  ("pk_gamma2_tree_tree", t.gamma2tt), ("pk_gamma2_tree_1loop", t.gamma2t1), ("pk_gamma2_1loop_1loop", t.gamma211),
  ("pk_gamma3_tree", t.gamma3)]⟩

/-- All arrays have `nk` elements. -/
structure CTerms1.Sized (t : CTerms1) : Prop where
  k : t.k.length = t.nk
  pkLin : t.pkLin.length = t.nk
  sigmad2 : t.sigmad2.length = t.nk
  gamma1a : t.gamma1a.length = t.nk
  gamma1b : t.gamma1b.length = t.nk
  gamma2tt : t.gamma2tt.length = t.nk

/-- All arrays have `nk` elements. -/
structure CTerms2.Sized (t : CTerms2) : Prop where
  k : t.k.length = t.nk
  pkLin : t.pkLin.length = t.nk
  sigmad2 : t.sigmad2.length = t.nk
  gamma1a1 : t.gamma1a1.length = t.nk
  gamma1a2 : t.gamma1a2.length = t.nk
  gamma1b1 : t.gamma1b1.length = t.nk
  gamma1b2 : t.gamma1b2.length = t.nk
  gamma2tt : t.gamma2tt.length = t.nk
  gamma2t1 : t.gamma2t1.length = t.nk
  gamma211 : t.gamma211.length = t.nk
  gamma3 : t.gamma3.length = t.nk

/-- The C assembly of the one-loop spectrum fills the output with the Python `pk()`, whatever the output held before. -/
theorem C33_one_loop (t : CTerms1) (h : t.Sized) (out : Buf ℝ) (ho : out.length = t.nk) :
    spectrum1C t out = .ok ((List.range t.nk).map fun i => some (pk1 t.py 1 none i)) := by
  apply fillLoop_ok _ _ _ _ ho
  intro i hi
  rw [rd_getD (h.k ▸ hi), rd_getD (h.sigmad2 ▸ hi), rd_getD (h.gamma1a ▸ hi), rd_getD (h.gamma1b ▸ hi), rd_getD (h.pkLin ▸ hi),
    rd_getD (h.gamma2tt ▸ hi)]
  simp only [Res.ok_bind]
  congr 1
  unfold pk1
  simp only [show t.py.val "k" i = t.k.getD i 0 from rfl, show t.py.val "pk_lin" i = t.pkLin.getD i 0 from rfl,
    show t.py.val "sigmad2" i = t.sigmad2.getD i 0 from rfl, show t.py.val "gamma1a_1loop" i = t.gamma1a.getD i 0 from rfl,
    show t.py.val "gamma1b_1loop" i = t.gamma1b.getD i 0 from rfl,
    show t.py.val "pk_gamma2_tree_tree" i = t.gamma2tt.getD i 0 from rfl]
  rw [show 0.5 * (t.k.getD i 0 * 1) ^ 2 * t.sigmad2.getD i 0 = 0.5 * t.k.getD i 0 * t.k.getD i 0 * t.sigmad2.getD i 0 by ring]
  generalize 0.5 * t.k.getD i 0 * t.k.getD i 0 * t.sigmad2.getD i 0 = f
  rw [show -2 * f = -f + -f by ring, Real.exp_add]
  ring

/-- The C assembly of the two-loop spectrum fills the output with the Python `pk()`, whatever the output held before. -/
theorem C33_two_loop (t : CTerms2) (h : t.Sized) (out : Buf ℝ) (ho : out.length = t.nk) :
    spectrum2C t out = .ok ((List.range t.nk).map fun i => some (pk2 t.py 1 none i)) := by
  apply fillLoop_ok _ _ _ _ ho
  intro i hi
  rw [rd_getD (h.k ▸ hi), rd_getD (h.sigmad2 ▸ hi), rd_getD (h.gamma1a1 ▸ hi), rd_getD (h.gamma1a2 ▸ hi),
    rd_getD (h.gamma1b1 ▸ hi), rd_getD (h.gamma1b2 ▸ hi), rd_getD (h.pkLin ▸ hi), rd_getD (h.gamma2tt ▸ hi),
    rd_getD (h.gamma2t1 ▸ hi), rd_getD (h.gamma211 ▸ hi), rd_getD (h.gamma3 ▸ hi)]
  simp only [Res.ok_bind]
  congr 1
  unfold pk2
  simp only [show t.py.val "k" i = t.k.getD i 0 from rfl, show t.py.val "pk_lin" i = t.pkLin.getD i 0 from rfl,
    show t.py.val "sigmad2" i = t.sigmad2.getD i 0 from rfl, show t.py.val "gamma1a_1loop" i = t.gamma1a1.getD i 0 from rfl,
    show t.py.val "gamma1a_2loop" i = t.gamma1a2.getD i 0 from rfl,
    show t.py.val "gamma1b_1loop" i = t.gamma1b1.getD i 0 from rfl,
    show t.py.val "gamma1b_2loop" i = t.gamma1b2.getD i 0 from rfl,
    show t.py.val "pk_gamma2_tree_tree" i = t.gamma2tt.getD i 0 from rfl,
    show t.py.val "pk_gamma2_tree_1loop" i = t.gamma2t1.getD i 0 from rfl,
    show t.py.val "pk_gamma2_1loop_1loop" i = t.gamma211.getD i 0 from rfl,
    show t.py.val "pk_gamma3_tree" i = t.gamma3.getD i 0 from rfl]
  rw [show 0.5 * (t.k.getD i 0 * 1) ^ 2 * t.sigmad2.getD i 0 = 0.5 * t.k.getD i 0 * t.k.getD i 0 * t.sigmad2.getD i 0 by ring]
  generalize 0.5 * t.k.getD i 0 * t.k.getD i 0 * t.sigmad2.getD i 0 = f
  rw [show -2 * f = -f + -f by ring, Real.exp_add]
  ring

/-- The hypotheses hold for arrays of one mode, and the assembled value is not trivial. -/
example : ∃ t : CTerms1, t.Sized ∧ spectrum1C t [none] = .ok [some 7] :=
  ⟨⟨1, [0], [1], [1], [1], [2], [1]⟩, ⟨rfl, rfl, rfl, rfl, rfl, rfl⟩, by
    rw [C33_one_loop _ ⟨rfl, rfl, rfl, rfl, rfl, rfl⟩ _ rfl]
    simp [pk1, CTerms1.py, Terms.val, Terms.get, List.lookup]
    norm_num⟩

example : ∃ t : CTerms2, t.Sized ∧ spectrum2C t [none] = .ok [some 28] :=
  ⟨⟨1, [0], [1], [1], [1], [1], [1], [1], [5], [6], [1], [7]⟩, ⟨rfl, rfl, rfl, rfl, rfl, rfl, rfl, rfl, rfl, rfl, rfl⟩, by
    rw [C33_two_loop _ ⟨rfl, rfl, rfl, rfl, rfl, rfl, rfl, rfl, rfl, rfl, rfl⟩ _ rfl]
    simp [pk2, CTerms2.py, Terms.val, Terms.get, List.lookup]
    norm_num⟩

end Verif
