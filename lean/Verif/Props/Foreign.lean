import Verif.Model.Foreign
import Verif.Props.Container

/-!
# C89: Python calls the library as it is declared
-/

namespace Verif

variable {α : Type}

/-! ## What it means -/

/-- The call reaches a function of the library with the arguments `as`: the function exists, the arguments have the number and types of its
parameters, and the result is read as what it is. -/
def Reaches (f : FCall) (as : List CArg) : Prop :=
  ∃ params, (f.name, params, f.restype) ∈ prototypes ∧ convertAll f.argtypes f.args = .ok as ∧ as.map CArg.ty = params.map some

theorem prototypes_names : (prototypes.map Prod.fst).Nodup := by decide

theorem convert_size {n : ℕ} (h : n < 2 ^ 64) : ArgTy.convert .cSize (.int n) = .ok (.size n) := by
  have : ((n : ℤ) % 2 ^ 64).toNat = n := by omega
  simp only [ArgTy.convert, this]

theorem convert_nd (n : ℕ) : ArgTy.convert (.nd n) (.array true [n]) = .ok (.dbls n) := by simp [ArgTy.convert]

/-! ## Direct calls -/

/-- C89, except for `find_pk_lin`: the direct wrappers reach the functions they name, with the lengths of the arrays as counts. -/
theorem C89_wrappers_partial {n : ℕ} (hn : n < 2 ^ 64) :
    Reaches (.nodes n) [.double, .double, .dbls n, .dbls n, .size n] ∧
    Reaches (.poly true true n n) [.double, .dbls n, .dbls n, .size n] ∧
    Reaches .lin [.double, .double, .double, .double, .double] ∧
    Reaches (.sigmad2 n) [.dbls n, .dbls n, .size n, .double] ∧
    Reaches .verbosity [.str] ∧
    Reaches (.setSpectrum true true n n) [.dbls n, .dbls n, .size n] ∧
    Reaches (.spectraB n n) [.str, .str, .size n, .dbls n, .dbls n] := by
  have h1 := convert_size hn
  have h2 := convert_nd n
  refine ⟨⟨[.double, .double, .dbls, .dbls, .size], by simp [prototypes, FCall.nodes], ?_, rfl⟩, ⟨[.double, .dbls, .dbls, .size], by simp [prototypes, FCall.poly], ?_, rfl⟩,
    ⟨[.double, .double, .double, .double, .double], by simp [prototypes, FCall.lin], rfl, rfl⟩, ⟨[.dbls, .dbls, .size, .double], by simp [prototypes, FCall.sigmad2], ?_, rfl⟩,
    ⟨[.str], by simp [prototypes, FCall.verbosity], rfl, rfl⟩, ⟨[.dbls, .dbls, .size], by simp [prototypes, FCall.setSpectrum], ?_, rfl⟩, ⟨[.str, .str, .size, .dbls, .dbls], by simp [prototypes, FCall.spectraB], ?_, rfl⟩⟩ <;>
  · simp only [FCall.nodes, FCall.poly, FCall.sigmad2, FCall.setSpectrum, FCall.spectraB, convertAll, h1, h2]
    rfl

example : Reaches (.nodes 600) [.double, .double, .dbls 600, .dbls 600, .size 600] := (C89_wrappers_partial (by norm_num)).1

/-- C89: arrays of another type or length than declared are refused before the library is reached: by `interpol_poly`, by
`set_spectrum_lin` and by the calls of `set_spectra_B`. -/
theorem C89_refused {d d' : Bool} {n n' : ℕ} (hn : n < 2 ^ 64) :
    ((∃ as, Reaches (.poly d d' n n') as) ↔ d = true ∧ d' = true ∧ n' = n) ∧
    ((∃ as, Reaches (.setSpectrum d d' n n') as) ↔ d = true ∧ d' = true ∧ n' = n) ∧
    ((∃ as, Reaches (.spectraB n n') as) ↔ n' = n) := by
  refine ⟨⟨?_, ?_⟩, ⟨?_, ?_⟩, ⟨?_, ?_⟩⟩
  · rintro ⟨as, params, -, h, -⟩
    by_cases hn' : n' = n <;> cases d <;> cases d' <;> simp_all [FCall.poly, convertAll, ArgTy.convert, bind, Except.bind]
  · rintro ⟨rfl, rfl, rfl⟩
    exact ⟨_, (C89_wrappers_partial hn).2.1⟩
  · rintro ⟨as, params, -, h, -⟩
    by_cases hn' : n' = n <;> cases d <;> cases d' <;> simp_all [FCall.setSpectrum, convertAll, ArgTy.convert, bind, Except.bind]
  · rintro ⟨rfl, rfl, rfl⟩
    exact ⟨_, (C89_wrappers_partial hn).2.2.2.2.2.1⟩
  · rintro ⟨as, params, -, h, -⟩
    by_cases hn' : n' = n
    · exact hn'
    · simp_all [FCall.spectraB, convertAll, ArgTy.convert, bind, Except.bind]
  · rintro rfl
    exact ⟨_, (C89_wrappers_partial hn).2.2.2.2.2.2⟩

example : ¬∃ as, Reaches (.setSpectrum true true 100 99) as := fun h => by
  have := ((C89_refused (d := true) (d' := true) (n := 100) (n' := 99) (by norm_num)).2.1.1 h).2.2
  omega

/-- C89 fails for `find_pk_lin`: the mode of interpolation is an enumeration in C and is declared as `size_t` in Python.  Name, number of
arguments and all other types agree, and the number passed is that of the enumerator (`LIN` 0, `POLY` 1, `src/define.h:19`). -/
theorem C89_find_pk_lin_violation {n : ℕ} (hn : n < 2 ^ 64) (interpol : String) :
    (¬∃ as, Reaches (.findPkLin n interpol) as) ∧
    convertAll (FCall.findPkLin n interpol).argtypes (FCall.findPkLin n interpol).args =
      .ok [.dbls n, .dbls n, .size n, .size (if interpol = "poly" then 1 else 0)] ∧
    ("find_pk_lin", [.dbls, .dbls, .size, .enum], CTy.void) ∈ prototypes := by
  have hc : convertAll (FCall.findPkLin n interpol).argtypes (FCall.findPkLin n interpol).args =
      .ok [.dbls n, .dbls n, .size n, .size (if interpol = "poly" then 1 else 0)] := by
    have h1 := convert_size hn
    have h2 := convert_nd n
    have h3 : ArgTy.convert .cSize (.int (if interpol = "poly" then 1 else 0)) = .ok (.size (if interpol = "poly" then 1 else 0)) := by
      by_cases h : interpol = "poly"
      · rw [if_pos h, if_pos h]; rfl
      · rw [if_neg h, if_neg h]; rfl
    simp only [FCall.findPkLin, convertAll, h1, h2, h3]
    rfl
  refine ⟨?_, hc, by decide⟩
  rintro ⟨as, params, hp, h, ht⟩
  rw [hc] at h
  cases h
  have : params = [.dbls, .dbls, .size, .enum] := by
    have hp : ("find_pk_lin", params, CTy.void) ∈ prototypes := hp
    simpa [prototypes] using hp
  rw [this] at ht
  cases ht

example : ¬∃ as, Reaches (.findPkLin 3 "poly") as := (C89_find_pk_lin_violation (by norm_num) _).1

/-! ## Cut-offs and runs -/

/-- C89: the cut-off names that `set_running_uvcutoff` can be given exist; `'all'` uses the first four. -/
theorem C89_cutoff : ∀ name ∈ ["spectrum_1loop", "spectrum_2loop", "bispectrum_1loop", "bias_1loop", "B"],
    Reaches (.uvcutoff name) [.double] := by
  intro name h
  simp only [List.mem_cons, List.not_mem_nil, or_false] at h
  rcases h with rfl | rfl | rfl | rfl | rfl <;> exact ⟨[.double], by decide, rfl, rfl⟩

/-- The last call of `run_terms` of each class. -/
def runCalls (nthreads : ℤ) : List FCall :=
  [.runSpectrum "run_terms_spectrum_1loop" nthreads, .runSpectrum "run_terms_spectrum_2loop" nthreads, .run "run_terms_bias_1loop" nthreads,
    .run "run_terms_A_1loop" nthreads, .run "run_terms_A_2loop" nthreads, .run "run_terms_B" nthreads]

/-- C89: the runs reach the library, with a number of threads that is the one given modulo `2^64`. -/
theorem C89_runs (nthreads : ℤ) : ∀ f ∈ runCalls nthreads, ∃ as, Reaches f as ∧ as.getLast? = some (.size (nthreads % 2 ^ 64).toNat) := by
  intro f h
  simp only [runCalls, List.mem_cons, List.not_mem_nil, or_false] at h
  rcases h with rfl | rfl | rfl | rfl | rfl | rfl
  · exact ⟨_, ⟨[.str, .str, .size], by simp [prototypes, FCall.runSpectrum], rfl, rfl⟩, rfl⟩
  · exact ⟨_, ⟨[.str, .str, .size], by simp [prototypes, FCall.runSpectrum], rfl, rfl⟩, rfl⟩
  · exact ⟨_, ⟨[.size], by simp [prototypes, FCall.run], rfl, rfl⟩, rfl⟩
  · exact ⟨_, ⟨[.size], by simp [prototypes, FCall.run], rfl, rfl⟩, rfl⟩
  · exact ⟨_, ⟨[.size], by simp [prototypes, FCall.run], rfl, rfl⟩, rfl⟩
  · exact ⟨_, ⟨[.size], by simp [prototypes, FCall.run], rfl, rfl⟩, rfl⟩

example : ∃ as, Reaches (.run "run_terms_B" 8) as ∧ as.getLast? = some (.size 8) := C89_runs 8 _ (by simp [runCalls])

/-- C89 fails for negative counts: they are not refused, and reach the library as numbers near `2^64`. -/
theorem C89_negative_violation {z : ℤ} (h0 : z < 0) (h1 : -2 ^ 64 ≤ z) : ∀ f ∈ runCalls z, ∃ as n, Reaches f as ∧
    as.getLast? = some (.size n) ∧ (n : ℤ) = z + 2 ^ 64 := by
  intro f hf
  obtain ⟨as, h, hl⟩ := C89_runs z f hf
  exact ⟨as, _, h, hl, by omega⟩

example : ∃ as n, Reaches (.run "run_terms_B" (-1)) as ∧ as.getLast? = some (.size n) ∧ (n : ℤ) = -1 + 2 ^ 64 :=
  C89_negative_violation (by norm_num) (by norm_num) _ (by simp [runCalls])

/-! ## Arrays of terms -/

/-- The classes with the function that takes their arrays, and whether the lengths are declared column by column. -/
def termCalls : List (PyClass × String × Bool) :=
  [(cls1, "set_terms_spectrum_1loop", false), (cls2, "set_terms_spectrum_2loop", false), (clsBias, "set_terms_bias_1loop", false),
    (clsA, "set_terms_A_1loop", true), (clsA, "set_terms_A_2loop", true), (clsB, "set_terms_B", true)]

theorem convertAll_nd : ∀ l : List ℕ, convertAll (l.map .nd) (l.map fun n => .array true [n]) = .ok (l.map .dbls)
  | [] => rfl
  | n :: l => by
      simp only [List.map_cons, convertAll, convert_nd, convertAll_nd l]
      rfl

/-- C89: whatever columns an object had before, `set_terms` reaches the library with the number of modes and one array per parameter, of
the number of modes times the number of components. -/
theorem C89_set_terms [Zero α] (t : Box α) (k : NArr α) (hk : k.flat.length < 2 ^ 64) {name : String} {perKey : Bool}
    (ht : (t.cls, name, perKey) ∈ termCalls) :
    ∃ f, FCall.setTerms name perKey (t.zeros k) = .ok f ∧ Reaches f (.size k.flat.length ::
      t.cls.fields.map fun key => .dbls (k.flat.length * (t.cls.shape.lookup key).getD 1)) := by
  obtain ⟨h1, h2, h3⟩ := C83_arguments t k
  have hmem : "k" ∈ t.cls.fields ∧ t.cls.shape.lookup "k" = none ∧ (perKey = false → t.cls.shape = []) ∧
      (name, .size :: List.replicate t.cls.fields.length .dbls, CTy.void) ∈ prototypes := by
    simp only [termCalls, List.mem_cons, Prod.mk.injEq, List.not_mem_nil, or_false] at ht
    rcases ht with ⟨h, rfl, rfl⟩ | ⟨h, rfl, rfl⟩ | ⟨h, rfl, rfl⟩ | ⟨h, rfl, rfl⟩ | ⟨h, rfl, rfl⟩ | ⟨h, rfl, rfl⟩ <;> rw [h] <;> decide
  obtain ⟨hf, hs, hp, hq⟩ := hmem
  obtain ⟨h2, h4⟩ := h2 hf
  have hcls : (t.zeros k).cls = t.cls := (zeros_lookup (α := α) k.flat.length "k" t.cls.fields (t.set "k" (.vec k.flat))).1
  set w : String → ℕ := fun key => k.flat.length * (t.cls.shape.lookup key).getD 1 with hw
  have hshape : ((t.cls.fields.map fun key => if key = "k" then NArr.vec k.flat
      else .vec (List.replicate (k.flat.length * (t.cls.shape.lookup key).getD 1) 0)).map fun a : NArr α => PyVal.array true a.shape) =
      (t.cls.fields.map w).map fun n => .array true [n] := by
    rw [List.map_map, List.map_map]
    refine List.map_congr_left fun key _ => ?_
    by_cases e : key = "k"
    · simp [e, hs, hw, NArr.shape]
    · simp [e, hw, NArr.shape]
  have htypes : FCall.termTypes perKey (t.zeros k) k.flat.length =
      .ok ((t.cls.fields.map w).map .nd) := by
    unfold FCall.termTypes
    cases perKey with
    | false =>
        have := hp rfl
        simp [hcls, hw, this, List.map_const']
    | true =>
        have hl : (t.zeros k).iter.mapM (t.zeros k).get = .ok _ := h4
        rw [h2] at hl
        rw [if_pos rfl, hcls]
        have hgen : ∀ (l : List String) (g : String → NArr α), l.mapM (t.zeros k).get = .ok (l.map g) →
            l.mapM (fun key => ((t.zeros k).get key).map fun a => ArgTy.nd a.flat.length) = .ok (l.map fun key => .nd (g key).flat.length) := by
          intro l g
          induction l with
          | nil => intro _; rfl
          | cons a l ih =>
              intro h
              rw [List.mapM_cons] at h ⊢
              cases ha : (t.zeros k).get a with
              | error e => rw [ha] at h; cases h
              | ok b =>
                  rw [ha] at h
                  cases hl : l.mapM (t.zeros k).get with
                  | error e => rw [hl] at h; cases h
                  | ok bs =>
                      rw [hl] at h
                      have h' : Except.ok (ε := String) (b :: bs) = .ok (g a :: l.map g) := h
                      injection h' with h'
                      injection h' with h5 h6
                      rw [ih (by rw [hl, h6]), h5]
                      rfl
        rw [hgen _ _ hl, List.map_map]
        congr 1
        refine List.map_congr_left fun key _ => ?_
        by_cases e : key = "k"
        · simp [e, hs, hw, NArr.flat]
        · simp [e, hw, NArr.flat]
  refine ⟨⟨name, .cSize :: (t.cls.fields.map w).map .nd, .void, .int k.flat.length :: (t.cls.fields.map w).map fun n => .array true [n]⟩, ?_,
    .size :: List.replicate t.cls.fields.length .dbls, hq, ?_, ?_⟩
  · unfold FCall.setTerms
    rw [h3]
    show Except.bind (FCall.termTypes perKey (t.zeros k) k.flat.length) _ = _
    rw [htypes, h4]
    show Except.ok _ = _
    rw [hshape]
  · simp only [convertAll, convert_size hk, convertAll_nd]
    show Except.ok _ = _
    rw [List.map_map]
    rfl
  · simp [CArg.ty, Function.comp_def, List.map_const']

example : ∃ f, FCall.setTerms "set_terms_B" true ((⟨clsB, [("sigmad2", .num (0 : ℤ)), ("x", .vec [1])]⟩ : Box ℤ).zeros (.vec [1, 2, 3])) = .ok f ∧
    Reaches f [.size 3, .dbls 3, .dbls 3, .dbls 3, .dbls 27] :=
  C89_set_terms (⟨clsB, [("sigmad2", .num (0 : ℤ)), ("x", .vec [1])]⟩ : Box ℤ) (.vec [1, 2, 3]) (by simp [NArr.flat])
    (by simp [termCalls])

end Verif
