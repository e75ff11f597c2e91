import Verif.Props.Shared

/-!
# C48, C56: arrays of the caller; missing or empty input
-/

namespace Verif

open World

variable {α : Type}

/-! ## C48 -/

/-- C48: an array made by the caller keeps its contents through every history in which the caller does not write to it, whatever is
set, run, copied or deleted: no call modifies it. -/
theorem C48_never_modified {N : Num α} {h1 h : List (PyEvent α)} {w0 w1 w' : World α} {l : List α}
    (e1 : (World.start α).exec N h1 = .ok w0) (e2 : w0.step N (.newArr l) = .ok w1)
    (e : Along N (fun _ e => (∀ l', e ≠ .write w0.c.next l') ∧ e ≠ .collect w0.c.next) w1 h w') : w'.c.mem w0.c.next = some l := by
  have hi := inv_exec inv_start e1
  cases e2
  have main : (w0.c.next < w'.c.next ∧ (∀ sl, w0.c.next ∉ (w'.c.terms sl).cols)) ∧ w'.c.mem w0.c.next = some l := by
    refine e.keep (Q := fun w => (w0.c.next < w.c.next ∧ (∀ sl, w0.c.next ∉ (w.c.terms sl).cols)) ∧ w.c.mem w0.c.next = some l)
      ⟨⟨Nat.lt_succ_self _, fun sl hx => absurd (hi.cols sl _ hx) (lt_irrefl _)⟩, Function.update_self _ _ _⟩ fun w e w' hp hs hq => ?_
    obtain ⟨⟨q1, q2⟩, q3⟩ := hq
    have f := stepFrame hs
    refine ⟨⟨q1.trans_le f.next, fun sl hx => q2 sl (f.cols sl _ hx q1)⟩, ?_⟩
    rw [f.mem _ q1 fun hm => ?_]
    · exact q3
    · cases e <;> try exact hm
      · obtain ⟨o, -, ha⟩ := hm
        exact q2 _ ha
      · exact hp.1 _ (by rw [show w0.c.next = _ from hm])
      · exact hp.2 (by rw [show w0.c.next = _ from hm.1])
  exact main.2

/-- An array that belongs to no object. -/
def Foreign (w : World α) (a : ℕ) : Prop :=
  a < w.c.next ∧ ∀ j o, w.obj j = some o → a ∉ w.dict o.dict ∧ ∀ k p, o.lin = some (k, p) → a ≠ k ∧ a ≠ p

/-- A sequence of modifications of arrays. -/
def writes (l : List (ℕ × List α)) : List (PyEvent α) := l.map fun x => .write x.1 x.2

theorem foreign_write {N : Num α} {w w' : World α} {a b : ℕ} {l : List α} (hs : w.step N (.write b l) = .ok w') (h : Foreign w a) :
    Foreign w' a := by
  simp only [step] at hs
  split at hs
  · split at hs
    · cases hs
      exact h
    · cases hs
      exact h
  · cases hs
    exact h

theorem foreign_setPkLin {N : Num α} {w w' : World α} {a i kv pv : ℕ} (hs : w.step N (.setPkLin i kv pv) = .ok w') (h : Foreign w a) :
    Foreign w' a := by
  simp only [step] at hs
  split at hs
  · next o lk lp ho _ _ =>
    have s := setPkLin_spec hs
    refine ⟨h.1.trans_le (by rw [s.next]; exact (CState.allocs_frame (n := 0) (W := fun _ => False) w.c [lk, lp] (Nat.zero_le _)).next),
      fun j x hx => ?_⟩
    have hx' : ({ w with objs := w.objs.set i (some { o with lin := some (w.c.next, w.c.next + 1) }) } : World α).obj j = some x := by
      rw [obj_eq] at hx ⊢
      dsimp only
      rw [s.objs] at hx
      exact hx
    have hd : ∀ d, w'.dict d = w.dict d := fun d => by
      unfold World.dict
      rw [s.dicts]
    rw [hd]
    rcases obj_set hx' with ⟨-, e⟩ | ⟨-, e⟩
    · cases e
      refine ⟨(h.2 i o ho).1, fun k p e => ?_⟩
      cases e
      have := h.1
      exact ⟨by omega, by omega⟩
    · exact h.2 j x e
  · cases hs
    exact h

theorem foreign_setTerms {N : Num α} {w w' : World α} {a i kv : ℕ} (hs : w.step N (.setTerms i kv) = .ok w') (h : Foreign w a) :
    Foreign w' a := by
  simp only [step] at hs
  split at hs
  · next o l ho _ =>
    have s := setTerms_spec hs
    refine ⟨h.1.trans_le (by rw [s.next]; omega), fun j x hx => ?_⟩
    have hx' : w.obj j = some x := by
      unfold World.obj at hx ⊢
      rw [s.objs] at hx
      exact hx
    refine ⟨fun ha => ?_, (h.2 j x hx').2⟩
    unfold World.dict at ha
    rw [s.dicts] at ha
    have := h.1
    rcases mem_getD_set ha with ha | ha
    · rcases List.mem_cons.1 ha with e | ha
      · omega
      · have := (lt_of_range' ha).1
        omega
    · exact (h.2 j x hx').1 ha
  · cases hs
    exact h

theorem along_writes {N : Num α} {w w' : World α} {i : ℕ} {l : List (ℕ × List α)} {F : ℕ → Prop} (hF : ∀ a, F a → Foreign w a)
    (hl : ∀ x ∈ l, F x.1) (e : w.exec N (writes l) = .ok w') :
    Along N (fun w e => ¬ LinDisturbed i w e ∧ ¬ TermsDisturbed i w e) w (writes l) w' ∧ ∀ a, F a → Foreign w' a := by
  induction l generalizing w with
  | nil =>
    cases e
    exact ⟨rfl, hF⟩
  | cons x l ih =>
    obtain ⟨w1, h1, h2⟩ := Res.bind_eq_ok.1 (show (w.step N (.write x.1 x.2) >>= fun w1 => w1.exec N (writes l)) = .ok w' from e)
    obtain ⟨i1, i2⟩ := ih (fun a ha => foreign_write h1 (hF a ha)) (fun y hy => hl y (.tail _ hy)) h2
    refine ⟨⟨⟨?_, ?_⟩, w1, h1, i1⟩, i2⟩
    · rintro ⟨o, k, p, ho, hlin, hx⟩
      have := ((hF _ (hl x (.head _))).2 i o ho).2 k p hlin
      rcases hx with e | e
      · exact this.1 e
      · exact this.2 e
    · rintro ⟨o, ho, hx⟩
      exact ((hF _ (hl x (.head _))).2 i o ho).1 (List.mem_of_mem_head? hx)

theorem Along.imp {N : Num α} {P Q : World α → PyEvent α → Prop} (hpq : ∀ w e, P w e → Q w e) {h : List (PyEvent α)} {w w' : World α}
    (e : World.Along N P w h w') : World.Along N Q w h w' := by
  induction h generalizing w with
  | nil => exact e
  | cons x h ih =>
    obtain ⟨h1, w1, h2, h3⟩ := e
    exact ⟨hpq _ _ h1, w1, h2, ih h3⟩

/-- C48: `set_pk_lin` and `set_terms` copy: after any modification of arrays of the caller, between the calls and before the run, the
results are those of the contents at the time of the calls. -/
theorem C48_arguments_copied {N : Num α} (hN : N.Sized) {h1 : List (PyEvent α)} {l2 l3 : List (ℕ × List α)} {w0 w1 w2 w3 w4 : World α}
    {i kv pv kt : ℕ} {o : PObj} {lk lp ks : List α} {a b : Field} {r : List (List α)} (e1 : (World.start α).exec N h1 = .ok w0)
    (ho : w0.obj i = some o) (hk : w0.c.mem kv = some lk) (hp : w0.c.mem pv = some lp) (hlen : lp.length = lk.length)
    (e2 : w0.step N (.setPkLin i kv pv) = .ok w1) (hl2 : ∀ x ∈ l2, Foreign w0 x.1) (e3 : w1.exec N (writes l2) = .ok w2)
    (hks : w2.c.mem kt = some ks) (e4 : w2.step N (.setTerms i kt) = .ok w3) (hl3 : ∀ x ∈ l3, Foreign w0 x.1)
    (e5 : w3.exec N (writes l3) = .ok w4) (hne : o.kind = .b1 ∨ o.kind = .b2 → lk ≠ []) (hr : Expected N o.kind a b lk lp ks r) :
    ∃ w5, w4.step N (.run i a b) = .ok w5 ∧ w5.columns i = some (ks :: r) := by
  obtain ⟨a1, f1⟩ := along_writes (i := i) (fun a ha => foreign_setPkLin e2 ha) hl2 e3
  obtain ⟨a2, -⟩ := along_writes (i := i) (fun a ha => foreign_setTerms e4 (f1 a ha)) hl3 e5
  obtain ⟨w5, h1, h2, -⟩ := C39_history_partial hN e1 ho hk hp hlen e2 (Along.imp (fun _ _ h => h.1) a1) hks e4 a2 hne hr
  exact ⟨w5, h1, h2⟩

/-- The three arrays handed over are overwritten at every opportunity. -/
noncomputable example (rt : ℕ → ℕ → ℝ × ℝ) (a b : Field) : ∃ w w' r, (World.start ℝ).exec (exNum rt)
      [.newArr exTable.k, .newArr exTable.pk, .newArr [2], .new .s1, .setPkLin 0 0 1, .write 0 [9, 9, 9, 9, 9], .write 1 [0, 0, 0, 0, 0], .setTerms 0 2,
        .write 2 [7]] = .ok w ∧ w.step (exNum rt) (.run 0 a b) = .ok w' ∧ w'.columns 0 = some ([2] :: r) ∧ (r.getD 0 []).getD 0 0 = 4 := by
  obtain ⟨r, hr⟩ := exNum_run rt exTable_physical.toWF (by norm_num [exTable]) [2] .s1 (by decide) a b
  have hF : ∀ x < 3, Foreign (⟨(((((World.start ℝ).c.alloc exTable.k).1.alloc exTable.pk).1.alloc [2]).1.setVerbosity "info"), [[]], [some ⟨.s1, 0, none⟩],
      [2, 1, 0]⟩ : World ℝ) x := fun x hx => ⟨hx, fun j o ho => by
    match j, ho with
    | 0, ho =>
      cases ho
      exact ⟨List.not_mem_nil, fun k p e => by cases e⟩
    | j + 1, ho => cases ho⟩
  obtain ⟨w', h1, h2⟩ := C48_arguments_copied (exNum_sized rt) (i := 0) (kv := 0) (pv := 1) (kt := 2) (lk := exTable.k) (lp := exTable.pk) (ks := [2])
    (a := a) (b := b) (r := r) (h1 := [.newArr exTable.k, .newArr exTable.pk, .newArr [2], .new .s1])
    (l2 := [(0, [9, 9, 9, 9, 9]), (1, [0, 0, 0, 0, 0])]) (l3 := [(2, [7])]) rfl rfl rfl rfl rfl rfl
    (fun x hx => hF x.1 (by simp at hx; rcases hx with rfl | rfl <;> decide)) rfl rfl rfl
    (fun x hx => hF x.1 (by simp at hx; subst hx; decide)) rfl (by rintro (h | h) <;> cases h) hr
  exact ⟨_, w', r, rfl, h1, h2, exNum_pk_lin rt hr exTable_at_two⟩

noncomputable example (N : Num ℝ) : ∃ w, (World.start ℝ).exec N [.newArr [3], .new .s1, .newArr [1], .setSpectrumLin 0 2 2, .assign 0 1 1, .setTerms 0 1, .drop 1, .del 0] = .ok w ∧
    w.c.mem 1 = some [1] :=
  ⟨_, rfl, C48_never_modified (N := N) (h1 := [.newArr [3], .new .s1]) (l := [1]) (h := [.setSpectrumLin 0 2 2, .assign 0 1 1, .setTerms 0 1, .drop 1, .del 0])
    rfl rfl ⟨⟨fun _ => by simp, by simp⟩, _, rfl, ⟨fun _ => by simp, by simp⟩, _, rfl, ⟨fun _ => by simp, by simp⟩, _, rfl, ⟨fun _ => by simp, by simp⟩, _, rfl,
      ⟨fun _ => by simp, by simp⟩, _, rfl, rfl⟩⟩

/-- The copies matter: `set_spectrum_lin` keeps the arrays it is given, and a later modification changes what a run reads. -/
noncomputable example (N : Num ℝ) : ∃ w, (World.start ℝ).exec N [.newArr [1], .newArr [4], .new .s1, .setSpectrumLin 0 0 1, .write 1 [9]] = .ok w ∧
    w.c.pkv w.c.lin = .ok ⟨1, [1], [9]⟩ := ⟨_, rfl, rfl⟩

/-! ## C56 -/

/-- C56 fails: a run before any spectrum was set reads through a null pointer or an empty table. -/
theorem C56_run_violation (rt : ℕ → ℕ → ℝ × ℝ) (a b : Field) : ∃ (h : List (PyEvent ℝ)) (w : World ℝ),
    (World.start ℝ).exec (exNum rt) h = .ok w ∧ (w.step (exNum rt) (.run 0 a b)).isUB := by
  refine ⟨[.newArr [2], .new .s1, .setTerms 0 0], _, rfl, "out of bounds read", ?_⟩
  rfl

/-- C56 fails: so does a lookup. -/
theorem C56_lookup_violation (rt : ℕ → ℕ → ℝ × ℝ) : ∃ (h : List (PyEvent ℝ)) (w : World ℝ),
    (World.start ℝ).exec (exNum rt) h = .ok w ∧ (w.step (exNum rt) (.lookup 0)).isUB :=
  ⟨[.newArr [2], .new .s1], _, rfl, "out of bounds read", rfl⟩

/-- C56 fails: `set_terms` with an empty array of modes reads before its start, for every class in the default verbosity. -/
theorem C56_set_terms_violation (N : Num ℝ) (κ : Kind) : ∃ (h : List (PyEvent ℝ)) (w : World ℝ),
    (World.start ℝ).exec N h = .ok w ∧ (w.step N (.setTerms 0 0)).isUB := by
  refine ⟨[.newArr [], .new κ], _, rfl, "out of bounds read", ?_⟩
  cases κ <;> rfl

/-- C56 fails: so does `set_pk_lin` with empty arrays. -/
theorem C56_set_pk_lin_violation (N : Num ℝ) (κ : Kind) : ∃ (h : List (PyEvent ℝ)) (w : World ℝ),
    (World.start ℝ).exec N h = .ok w ∧ (w.step N (.setPkLin 0 0 0)).isUB :=
  ⟨[.newArr [], .new κ], _, rfl, "out of bounds read", rfl⟩

/-- C56: `set_terms` is harmless for every non-empty array, and for an empty one when nothing is printed. -/
theorem C56_set_terms_partial (N : Num α) (w : World α) (i kv : ℕ) (h : w.c.verb = .info → w.c.mem kv ≠ some []) :
    ∃ w', w.step N (.setTerms i kv) = .ok w' := by
  simp only [step]
  split
  · next o l ho hk =>
    by_cases hv : w.c.verb = .info
    · exact setTerms_defined fun e => h hv (by rw [hk, e])
    · unfold World.setTerms CState.setTerms
      dsimp only
      have f := CState.allocs_frame (n := 0) (W := fun _ => True) (w.c.alloc l).1 (o.kind.widths.map fun m => List.replicate (l.length * m) N.zero)
        (Nat.zero_le _)
      generalize (w.c.alloc l).1.allocs (o.kind.widths.map fun m => List.replicate (l.length * m) N.zero) = r at *
      unfold CState.printK
      rw [if_neg (by dsimp only; rw [f.verb]; exact hv), Res.ok_bind]
      exact ⟨_, rfl⟩
  · exact ⟨w, rfl⟩

/-- C56: `set_pk_lin` is harmless for non-empty arrays, for arrays of different lengths, and when nothing is printed. -/
theorem C56_set_pk_lin_partial (N : Num α) (w : World α) (i kv pv : ℕ) (h : w.c.verb = .info → w.c.mem kv ≠ some []) :
    ∃ w', w.step N (.setPkLin i kv pv) = .ok w' := by
  simp only [step]
  split
  · next o lk lp ho hk hp =>
    unfold World.setPkLin World.setSpectrumLin
    dsimp only
    obtain ⟨m1, m2, -, -⟩ := alloc2_mem w.c lk lp
    have e1 : ((w.c.alloc lk).1.alloc lp).1.mem (w.c.alloc lk).2 = some lk := m1
    have e2 : ((w.c.alloc lk).1.alloc lp).1.mem ((w.c.alloc lk).1.alloc lp).2 = some lp := m2
    rw [e1, e2]
    dsimp only
    split
    · unfold CState.setPkLin
      dsimp only
      by_cases hv : w.c.verb = .info
      · obtain ⟨s', hs'⟩ := printK_defined (s := { ((w.c.alloc lk).1.alloc lp).1 with
          lin := ⟨lk.length, some (w.c.alloc lk).2, some ((w.c.alloc lk).1.alloc lp).2⟩ }) (l := lk) (fun e => h hv (by rw [hk, e])) e1
        rw [hs', Res.ok_bind]
        exact ⟨_, rfl⟩
      · unfold CState.printK
        rw [if_neg (by exact hv), Res.ok_bind]
        exact ⟨_, rfl⟩
    · exact ⟨_, rfl⟩
  · exact ⟨w, rfl⟩

/-- C56: with a spectrum of at least two modes in place and modes set (possibly none), every run is defined. -/
theorem C56_run_partial {cfg : Cfg ℝ} {rt : ℕ → ℕ → ℝ × ℝ} {q1 : Cuba ℝ} {q2 : Cuba (Fin 12 → ℝ)} {es : ℕ → ℕ → List Event}
    (h1 : CubaSafe q1) (h2 : CubaSafe q2) (hes : Schedules es) {h : List (PyEvent ℝ)} {w : World ℝ}
    (e : (World.start ℝ).exec (driverNum cfg rt q1 q2 es) h = .ok w) {i : ℕ} {κ : Kind} {lk lp ks : List ℝ} (a b : Field)
    (hsz : lk.length < 2 ^ 62) (h2k : 2 ≤ lk.length) (hcfg : ∀ p, (cfg.prec p).n < 2 ^ 63 ∧ (cfg.prec p).interpol = .poly)
    (hint : ∀ o, cfg.interp o = .poly) (hl : LinReady w i κ lk lp) (ht : TermsReady w i κ ks) :
    ∃ w', w.step (driverNum cfg rt q1 q2 es) (.run i a b) = .ok w' := by
  have hi := inv_exec inv_start e
  have hlen : lp.length = lk.length := by
    obtain ⟨_, _, _, _, _, _, _, h, _⟩ := hl
    exact h
  have hok : ∀ ks, Env.Ok ⟨cfg, rt, ⟨lk.length, lk, lp⟩, ks⟩ := fun ks =>
    ⟨⟨rfl, hlen, hsz⟩, h2k, fun p => (hcfg p).1, fun p => (hcfg p).2, hint⟩
  have hwf : ∀ l : List ℝ, l.length = lk.length → Pk.WF ⟨lk.length, lk, l⟩ := fun l hl => ⟨rfl, hl, hsz⟩
  have hasm := (driverNum_sized cfg rt q1 q2 es).asm
  have hr : ∃ r, Expected (driverNum cfg rt q1 q2 es) κ a b lk lp ks r := by
    cases κ
    case b1 => exact driverNum_defined (hok ks) h1 h2 hes .b .delta .delta _ _ fun _ => ⟨hwf _ hlen, h2k, hwf _ hlen, h2k⟩
    case b2 =>
      obtain ⟨r1, hr1⟩ := driverNum_defined (hok lk) h1 h2 hes .s1 .delta .theta ⟨0, [], []⟩ ⟨0, [], []⟩ (by simp)
      obtain ⟨r2, hr2⟩ := driverNum_defined (hok lk) h1 h2 hes .s1 .theta .theta ⟨0, [], []⟩ ⟨0, [], []⟩ (by simp)
      obtain ⟨r, hr⟩ := driverNum_defined (hok ks) h1 h2 hes .b .delta .delta ⟨lk.length, lk, (driverNum cfg rt q1 q2 es).asm lk r1⟩
        ⟨lk.length, lk, (driverNum cfg rt q1 q2 es).asm lk r2⟩ fun _ => ⟨hwf _ (hasm _ _), h2k, hwf _ (hasm _ _), h2k⟩
      exact ⟨r, r1, r2, hr1, hr2, hr⟩
    all_goals exact driverNum_defined (hok ks) h1 h2 hes _ a b _ _ (by simp [Kind.slot])
  obtain ⟨r, hr⟩ := hr
  obtain ⟨w', hs, -⟩ := run_ready (driverNum_sized cfg rt q1 q2 es) hi (fun _ e => by rw [e] at h2k; simp at h2k) hl ht hr
  exact ⟨w', hs⟩

/-- C56: with a spectrum of at least two modes in place every lookup is defined. -/
theorem C56_lookup_partial {cfg : Cfg ℝ} {rt : ℕ → ℕ → ℝ × ℝ} {q1 : Cuba ℝ} {q2 : Cuba (Fin 12 → ℝ)} {es : ℕ → ℕ → List Event}
    {w : World ℝ} {i kv : ℕ} {κ : Kind} {lk lp : List ℝ} (hsz : lk.length < 2 ^ 62) (h2k : 2 ≤ lk.length) (hl : LinReady w i κ lk lp) :
    ∃ w', w.step (driverNum cfg rt q1 q2 es) (.lookup kv) = .ok w' := by
  obtain ⟨d, k, p, -, hlin, hk, hp, hlen, -⟩ := hl
  simp only [step]
  split
  · next l hl =>
    unfold CState.lookup
    have hz : subSize lk.length 1 < lk.length := by
      unfold subSize
      have hm : sizeMod = 2 ^ 64 := rfl
      rw [show lk.length + sizeMod - 1 = lk.length - 1 + sizeMod by omega, Nat.add_mod_right]
      have := Nat.mod_le (lk.length - 1) sizeMod
      omega
    obtain ⟨r, hr⟩ : ∃ r, findPk (⟨lk.length, lk, lp⟩ : Pk ℝ) l .poly = .ok r := by
      unfold findPk
      rw [rd_ok (i := 0) (a := lk) (by omega), Res.ok_bind]
      dsimp only
      rw [rd_ok hz, Res.ok_bind]
      exact findPkLoop_poly_defined ⟨lk.length, lk, lp⟩ ⟨rfl, hlen, hsz⟩ h2k _ _ l 0 (by show 0 < lk.length; omega)
    rw [hlin, CState.pkv_some hk hp hlen, Res.ok_bind]
    have hr' : (driverNum cfg rt q1 q2 es).look ⟨lk.length, lk, lp⟩ l = .ok r := hr
    rw [hr', Res.ok_bind]
    exact ⟨_, rfl⟩
  · exact ⟨w, rfl⟩

/-- An empty request, set in mode `quiet`, is harmless. -/
noncomputable example (rt : ℕ → ℕ → ℝ × ℝ) (a b : Field) : ∃ w w', (World.start ℝ).exec (exNum rt)
      [.newArr exTable.k, .newArr exTable.pk, .newArr [], .new .a2, .setPkLin 0 0 1, .setVerbosity "quiet", .setTerms 0 2] = .ok w ∧
      w.step (exNum rt) (.run 0 a b) = .ok w' := by
  have hc := exEnv_ok rt []
  obtain ⟨w', hw'⟩ := C56_run_partial (cfg := Cfg.default) (rt := rt) exCuba_safe exCuba_safe serial_schedules
    (h := [.newArr exTable.k, .newArr exTable.pk, .newArr [], .new .a2, .setPkLin 0 0 1, .setVerbosity "quiet", .setTerms 0 2]) rfl (i := 0)
    (κ := .a2) (lk := exTable.k) (lp := exTable.pk) (ks := []) a b exTable_physical.toWF.hsize (by norm_num [exTable])
    (fun p => ⟨hc.size p, hc.poly p⟩) hc.interp
    ⟨0, 3, 4, rfl, rfl, rfl, rfl, rfl, fun sl => by
      cases sl
      case a2 =>
        show 3 ∉ [6, 7, 8] ∧ 4 ∉ [6, 7, 8]
        decide
      all_goals exact ⟨List.not_mem_nil, List.not_mem_nil⟩⟩
    ⟨0, some (3, 4), 5, [6, 7, 8], rfl, rfl, rfl, rfl, by decide, .cons rfl (.cons rfl (.cons rfl .nil)), fun sl => by
      cases sl
      case a2 =>
        show 5 ∉ [6, 7, 8]
        decide
      all_goals exact List.not_mem_nil⟩
  exact ⟨_, w', rfl, hw'⟩

noncomputable example (N : Num ℝ) : ∃ w w', (World.start ℝ).exec N [.newArr [], .new .bias, .setVerbosity "quiet"] = .ok w ∧
    w.step N (.setTerms 0 0) = .ok w' :=
  let ⟨w', h⟩ := C56_set_terms_partial N _ 0 0 fun h => by cases h
  ⟨_, w', rfl, h⟩

end Verif
