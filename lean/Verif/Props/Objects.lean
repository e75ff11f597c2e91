import Verif.Proofs.Ready
import Verif.Proofs.NumDriver

/-!
# C39: several objects sharing the library
-/

namespace Verif

open World

variable {α : Type}

/-- C39: an object is given a spectrum `(lk, lp)` and modes `ks`, in this order, at any point of any history; in between and until its
run anything happens except the disturbances listed in `LinDisturbed` and `TermsDisturbed`.  Then its run is defined, leaves in its
columns what its own spectrum gives for `ks`, and stores into no other array. -/
theorem C39_history_partial {N : Num α} (hN : N.Sized) {h1 h2 h3 : List (PyEvent α)} {w0 w1 w2 w3 w4 : World α} {i kv pv kt : ℕ}
    {o : PObj} {lk lp ks : List α} {a b : Field} {r : List (List α)} (e1 : (World.start α).exec N h1 = .ok w0) (ho : w0.obj i = some o)
    (hk : w0.c.mem kv = some lk) (hp : w0.c.mem pv = some lp) (hlen : lp.length = lk.length)
    (e2 : w0.step N (.setPkLin i kv pv) = .ok w1) (e3 : Along N (fun w e => ¬ LinDisturbed i w e) w1 h2 w2)
    (hks : w2.c.mem kt = some ks) (e4 : w2.step N (.setTerms i kt) = .ok w3)
    (e5 : Along N (fun w e => ¬ LinDisturbed i w e ∧ ¬ TermsDisturbed i w e) w3 h3 w4)
    (hne : o.kind = .b1 ∨ o.kind = .b2 → lk ≠ []) (hr : Expected N o.kind a b lk lp ks r) :
    ∃ w5, w4.step N (.run i a b) = .ok w5 ∧ w5.columns i = some (ks :: r) ∧
      ∀ x o', w4.obj i = some o' → x < w4.c.next → x ∉ w4.dict o'.dict → w5.c.mem x = w4.c.mem x := by
  have i0 := inv_exec inv_start e1
  have i1 := inv_step i0 e2
  obtain ⟨i2, l2⟩ : Inv w2 ∧ LinReady w2 i o.kind lk lp :=
    e3.keep (Q := fun w => Inv w ∧ LinReady w i o.kind lk lp) ⟨i1, lin_ready i0 ho hk hp hlen e2⟩
      fun w e w' hd hs hq => ⟨inv_step hq.1 hs, lin_step hq.1 hs hq.2 hd⟩
  have l3 : LinReady w3 i o.kind lk lp := lin_step i2 e4 l2 fun h => h
  have i3 := inv_step i2 e4
  obtain ⟨d2, k2, p2, ho2, -⟩ := id l2
  have t3 := terms_ready i2 ho2 hks e4
  obtain ⟨i4, l4, t4⟩ : Inv w4 ∧ LinReady w4 i o.kind lk lp ∧ TermsReady w4 i o.kind ks :=
    e5.keep (Q := fun w => Inv w ∧ LinReady w i o.kind lk lp ∧ TermsReady w i o.kind ks) ⟨i3, l3, t3⟩
      fun w e w' hd hs hq => ⟨inv_step hq.1 hs, lin_step hq.1 hs hq.2.1 hd.1, terms_step hq.1 hs hq.2.2 hd.2⟩
  obtain ⟨w5, h5, hc⟩ := run_ready hN i4 hne l4 t4 hr
  refine ⟨w5, h5, hc, fun x o' ho' hx hn => (stepFrame h5).mem x hx ?_⟩
  rintro ⟨y, hy, hm⟩
  obtain ⟨d, lin, ka, cols, g1, g2, g3, -⟩ := t4
  rw [g1] at ho' hy
  cases ho'
  cases hy
  rw [g3] at hm
  exact hn (by rw [g2]; exact List.mem_cons_of_mem _ hm)

/-- C39: the same with modes given before the spectrum. -/
theorem C39_history_terms_first_partial {N : Num α} (hN : N.Sized) {h1 h2 h3 : List (PyEvent α)} {w0 w1 w2 w3 w4 : World α}
    {i kv pv kt : ℕ} {o : PObj} {lk lp ks : List α} {a b : Field} {r : List (List α)} (e1 : (World.start α).exec N h1 = .ok w0)
    (ho : w0.obj i = some o) (hks : w0.c.mem kt = some ks) (e2 : w0.step N (.setTerms i kt) = .ok w1)
    (e3 : Along N (fun w e => ¬ TermsDisturbed i w e) w1 h2 w2) (hk : w2.c.mem kv = some lk) (hp : w2.c.mem pv = some lp)
    (hlen : lp.length = lk.length) (e4 : w2.step N (.setPkLin i kv pv) = .ok w3)
    (e5 : Along N (fun w e => ¬ LinDisturbed i w e ∧ ¬ TermsDisturbed i w e) w3 h3 w4)
    (hne : o.kind = .b1 ∨ o.kind = .b2 → lk ≠ []) (hr : Expected N o.kind a b lk lp ks r) :
    ∃ w5, w4.step N (.run i a b) = .ok w5 ∧ w5.columns i = some (ks :: r) := by
  have i0 := inv_exec inv_start e1
  have i1 := inv_step i0 e2
  obtain ⟨i2, t2⟩ : Inv w2 ∧ TermsReady w2 i o.kind ks :=
    e3.keep (Q := fun w => Inv w ∧ TermsReady w i o.kind ks) ⟨i1, terms_ready i0 ho hks e2⟩
      fun w e w' hd hs hq => ⟨inv_step hq.1 hs, terms_step hq.1 hs hq.2 hd⟩
  have t3 : TermsReady w3 i o.kind ks := terms_step i2 e4 t2 fun h => h
  have i3 := inv_step i2 e4
  obtain ⟨d2, k2, p2, c2, ho2, -⟩ := id t2
  have l3 := lin_ready i2 ho2 hk hp hlen e4
  obtain ⟨i4, l4, t4⟩ : Inv w4 ∧ LinReady w4 i o.kind lk lp ∧ TermsReady w4 i o.kind ks :=
    e5.keep (Q := fun w => Inv w ∧ LinReady w i o.kind lk lp ∧ TermsReady w i o.kind ks) ⟨i3, l3, t3⟩
      fun w e w' hd hs hq => ⟨inv_step hq.1 hs, lin_step hq.1 hs hq.2.1 hd.1, terms_step hq.1 hs hq.2.2 hd.2⟩
  exact run_ready hN i4 hne l4 t4 hr

/-- Events that may change the columns of object `i`: a run that stores into one of them, a modification or replacement of one of them,
the deletion of the object. -/
def ColumnsDisturbed (i : ℕ) (w : World α) : PyEvent α → Prop
  | .run j _ _ => ∃ o x a, w.obj i = some o ∧ w.obj j = some x ∧ a ∈ w.dict o.dict ∧ a ∈ (w.c.terms x.kind.slot).cols
  | .write a _ => ∃ o, w.obj i = some o ∧ a ∈ w.dict o.dict
  | .setTerms j _ => ∃ o x, w.obj i = some o ∧ w.obj j = some x ∧ x.dict = o.dict
  | .assign j _ _ => ∃ o x, w.obj i = some o ∧ w.obj j = some x ∧ x.dict = o.dict
  | .del j => j = i
  | _ => False

/-- An object keeps its class and its dictionary. -/
theorem obj_kept {N : Num α} {w w' : World α} {e : PyEvent α} (hs : w.step N e = .ok w') {i : ℕ} {x : PObj} (hx : w.obj i = some x)
    (hd : e ≠ .del i) : ∃ y, w'.obj i = some y ∧ y.dict = x.dict ∧ y.kind = x.kind := by
  have f := stepFrame hs
  by_cases hso : SetsObj i e
  · have lin : ∀ {u u' : World α} {k p : ℕ}, u.objs = w.objs → AfterLin u i x k p u' →
        ∃ y, u'.obj i = some y ∧ y.dict = x.dict ∧ y.kind = x.kind := by
      intro u u' k p hu s
      refine ⟨{ x with lin := some (k, p) }, ?_, rfl, rfl⟩
      rw [obj_eq, s.objs, hu, List.getElem?_set_self (List.getElem?_eq_some_iff.1 (obj_eq.1 hx)).1]
    cases e <;> try exact hso.elim
    · next j kv pv =>
      have : j = i := hso
      subst this
      simp only [step] at hs
      split at hs
      · next o' lk lp ho' _ _ =>
        rw [hx] at ho'
        cases ho'
        exact lin (by rfl) (setPkLin_spec hs)
      · cases hs
        exact ⟨x, hx, rfl, rfl⟩
    · next j kv pv =>
      have : j = i := hso
      subst this
      simp only [step] at hs
      split at hs
      · next o' ho' =>
        rw [hx] at ho'
        cases ho'
        split at hs
        · exact lin rfl (setSpectrumLin_spec hs)
        · cases hs
          exact ⟨x, hx, rfl, rfl⟩
      · cases hs
        exact ⟨x, hx, rfl, rfl⟩
    · exact absurd (by rw [show _ = i from hso]) hd
  · exact ⟨x, f.obj i x hx hso, rfl, rfl⟩

theorem mapM_congr' {β γ : Type} {f g : β → Option γ} : ∀ {l : List β}, (∀ a ∈ l, f a = g a) → l.mapM f = l.mapM g
  | [], _ => rfl
  | a :: l, h => by rw [List.mapM_cons, List.mapM_cons, h a (.head _), mapM_congr' fun b hb => h b (.tail _ hb)]

theorem columns_step {N : Num α} {w w' : World α} {e : PyEvent α} {i : ℕ} {r : List (List α)} (hi : Inv w) (hs : w.step N e = .ok w')
    (hcol : w.columns i = some r) (hd : ¬ ColumnsDisturbed i w e) : w'.columns i = some r := by
  obtain ⟨x, hx⟩ : ∃ o, w.obj i = some o := by
    unfold columns at hcol
    split at hcol
    · cases hcol
    · next o ho => exact ⟨o, ho⟩
  have f := stepFrame hs
  obtain ⟨y, hy, hyd, -⟩ := obj_kept hs hx (by rintro rfl; exact hd rfl)
  have hdict : w'.dict y.dict = w.dict x.dict := by
    rw [hyd]
    refine f.dict _ (hi.dicts i x hx) fun hsd => hd ?_
    cases e <;> try exact hsd.elim
    · obtain ⟨z, hz, hzd⟩ := hsd
      exact ⟨x, z, hx, hz, hzd⟩
    · obtain ⟨z, hz, hzd⟩ := hsd
      exact ⟨x, z, hx, hz, hzd⟩
  unfold columns at hcol ⊢
  rw [hx] at hcol
  rw [hy]
  dsimp only at hcol ⊢
  rw [hdict, ← hcol]
  refine mapM_congr' fun a ha => ?_
  have hr : w.reach a = true := reach_dict hx ha
  refine f.mem a (hi.lt hr) fun hm => ?_
  cases e <;> try exact hm.elim
  · obtain ⟨z, hz, hzm⟩ := hm
    exact hd ⟨x, z, a, hx, hz, ha, hzm⟩
  · exact hd ⟨x, hx, by rw [← show a = _ from hm]; exact ha⟩
  · obtain ⟨rfl, hf⟩ := hm
    rw [hr] at hf
    cases hf

/-- C39: results stay until one of these events, in particular whatever spectra are set and whatever other arrays are filled. -/
theorem C39_results_kept {N : Num α} {h1 h : List (PyEvent α)} {w w' : World α} {i : ℕ} {r : List (List α)}
    (e1 : (World.start α).exec N h1 = .ok w) (hc : w.columns i = some r) (e : Along N (fun w e => ¬ ColumnsDisturbed i w e) w h w') :
    w'.columns i = some r :=
  (e.keep (Q := fun w => Inv w ∧ w.columns i = some r) ⟨inv_exec inv_start e1, hc⟩
    fun _ _ _ hd hs hq => ⟨inv_step hq.1 hs, columns_step hq.1 hs hq.2 hd⟩).2

/-- What a run does in general (classes other than B): it uses the spectrum set last, by whichever object `j`, and fills the columns
set last for that class, by whichever object `m`. -/
theorem C39_last_set {N : Num α} (hN : N.Sized) {h : List (PyEvent α)} {w : World α} (e : (World.start α).exec N h = .ok w) {i j m : ℕ}
    {o : PObj} {κ : Kind} {lk lp ks : List α} {a b : Field} {r : List (List α)} (ho : w.obj i = some o) (hb1 : o.kind ≠ .b1)
    (hb2 : o.kind ≠ .b2) (hl : LinReady w j κ lk lp) (ht : TermsReady w m o.kind ks)
    (hr : N.run o.kind.slot a b ⟨lk.length, lk, lp⟩ ⟨0, [], []⟩ ⟨0, [], []⟩ ks = .ok r) :
    ∃ w', w.step N (.run i a b) = .ok w' ∧ w'.columns m = some (ks :: r) := by
  have hi := inv_exec inv_start e
  obtain ⟨d, k, p, ho1, hlin, hk, hp, hlen, -⟩ := hl
  obtain ⟨d', lin', ka, cols, ho2, hdict, hterms, hka, hn, hs, hck⟩ := ht
  have hs1 : o.kind.slot ≠ .b := by
    generalize o.kind = κ at *
    cases κ <;> simp_all [Kind.slot]
  obtain ⟨c, hc, hv⟩ := run_plain hN hs1 (a := a) (b := b) hlin hk hp hlen hterms hka hn hs hr
  have hrun : w.runTerms N o a b = .ok { w with c := c } := by
    unfold runTerms
    split
    · next e => exact absurd e hb1
    · next e => exact absurd e hb2
    · rw [hc, Res.ok_bind]
  have f := (runTerms_wframe hrun).1
  refine ⟨{ w with c := c }, by simp only [step, ho]; exact hrun, columns_eq (ka := ka) (f.obj ho2) ?_ ?_ hv⟩
  · exact hdict
  · rw [f.m.mem ka (hi.lt_mem hka) (hck _)]
    exact hka

/-! ## Witnesses, with the numerical content of `Verif.Model.Driver` -/

/-- Twice `exTable`. -/
noncomputable def exTable3 : Pk ℝ := ⟨5, [1, 2, 3, 5, 8], [2, 8, 18, 50, 128]⟩

theorem exTable3_wf : exTable3.WF := ⟨rfl, rfl, by norm_num [exTable3]⟩

/-- Default settings, one thread. -/
noncomputable def exNum (rt : ℕ → ℕ → ℝ × ℝ) : Num ℝ := driverNum Cfg.default rt exCuba exCuba serial

theorem exNum_sized (rt : ℕ → ℕ → ℝ × ℝ) : (exNum rt).Sized := driverNum_sized _ _ _ _ _

theorem exNum_run (rt : ℕ → ℕ → ℝ × ℝ) {t : Pk ℝ} (h : t.WF) (h2 : 2 ≤ t.nk) (ks : List ℝ) (sl : Slot) (hb : sl ≠ .b) (a b : Field) :
    ∃ r, (exNum rt).run sl a b t ⟨0, [], []⟩ ⟨0, [], []⟩ ks = .ok r :=
  driverNum_defined ⟨h, h2, (exEnv_ok rt ks).size, (exEnv_ok rt ks).poly, (exEnv_ok rt ks).interp⟩ exCuba_safe exCuba_safe serial_schedules sl a b
    _ _ fun e => absurd e hb

theorem exNum_pk_lin (rt : ℕ → ℕ → ℝ × ℝ) {t : Pk ℝ} {a b : Field} {r : List (List ℝ)} {v : ℝ}
    (h : (exNum rt).run .s1 a b t ⟨0, [], []⟩ ⟨0, [], []⟩ [2] = .ok r) (hv : findPk t [2] .poly = .ok [v]) : (r.getD 0 []).getD 0 0 = v := by
  obtain ⟨pl, h1, h2⟩ := driverNum_pk_lin serial_schedules h (ik := 0) (by simp)
  rw [show Cfg.default.interp .spectrum_1loop = Interpol.poly from rfl, hv] at h1
  cases h1
  simpa using h2

theorem exTable_at_two : findPk exTable [2] .poly = .ok [4] := by
  have := C08_findPk_node_poly exTable exTable_physical.toIncreasing 1 (by norm_num [exTable])
  simpa [exTable] using this

theorem exTable3_at_two : findPk exTable3 [2] .poly = .ok [8] := by
  have := C08_findPk_node_poly exTable3 ⟨exTable3_wf, by norm_num [exTable3]⟩ 1 (by norm_num [exTable3])
  simpa [exTable3] using this

/-- Two objects; the second one is given another spectrum. -/
noncomputable def exTwo : List (PyEvent ℝ) :=
  [.newArr exTable.k, .newArr exTable.pk, .newArr exTable3.pk, .newArr [2], .new .s1, .new .s1, .setPkLin 0 0 1, .setTerms 0 3,
    .setPkLin 1 0 2]

/-- C39 fails: an object that was given a spectrum and modes runs after another object was given another spectrum; its columns are not
those of its own spectrum. -/
theorem C39_spectrum_violation (rt : ℕ → ℕ → ℝ × ℝ) (a b : Field) :
    ∃ (h : List (PyEvent ℝ)) (w w' : World ℝ) (o : PObj) (k p : ℕ), (World.start ℝ).exec (exNum rt) h = .ok w ∧ w.obj 0 = some o ∧
      o.kind = .s1 ∧ o.lin = some (k, p) ∧ w.c.mem k = some exTable.k ∧ w.c.mem p = some exTable.pk ∧ TermsReady w 0 .s1 [2] ∧
      w.step (exNum rt) (.run 0 a b) = .ok w' ∧
      (∃ r, Expected (exNum rt) .s1 a b exTable.k exTable.pk [2] r) ∧
      ∀ r, Expected (exNum rt) .s1 a b exTable.k exTable.pk [2] r → w'.columns 0 ≠ some ([2] :: r) := by
  obtain ⟨w, hw, ho, hk, hp, hl, ht⟩ : ∃ w, (World.start ℝ).exec (exNum rt) exTwo = .ok w ∧ w.obj 0 = some ⟨.s1, 0, some (4, 5)⟩ ∧
      w.c.mem 4 = some exTable.k ∧ w.c.mem 5 = some exTable.pk ∧ LinReady w 1 .s1 exTable3.k exTable3.pk ∧ TermsReady w 0 .s1 [2] := by
    refine ⟨_, rfl, rfl, rfl, rfl, ⟨1, 12, 13, rfl, rfl, rfl, rfl, rfl, fun sl => ?_⟩,
      ⟨0, some (4, 5), 6, [7, 8, 9, 10, 11], rfl, rfl, rfl, rfl, by decide, ?_, fun sl => ?_⟩⟩
    · cases sl
      · show 12 ∉ [7, 8, 9, 10, 11] ∧ 13 ∉ [7, 8, 9, 10, 11]
        decide
      all_goals exact ⟨List.not_mem_nil, List.not_mem_nil⟩
    · exact .cons rfl (.cons rfl (.cons rfl (.cons rfl (.cons rfl .nil))))
    · cases sl
      · show 6 ∉ [7, 8, 9, 10, 11]
        decide
      all_goals exact List.not_mem_nil
  obtain ⟨r3, hr3⟩ := exNum_run rt exTable3_wf (by norm_num [exTable3]) [2] .s1 (by decide) a b
  obtain ⟨w', hs, hc⟩ := C39_last_set (exNum_sized rt) hw ho (by decide) (by decide) hl ht hr3
  obtain ⟨r, hr⟩ := exNum_run rt exTable_physical.toWF (by norm_num [exTable]) [2] .s1 (by decide) a b
  refine ⟨exTwo, w, w', _, 4, 5, hw, ho, rfl, rfl, hk, hp, ht, hs, ⟨r, hr⟩, fun r' hr' he => ?_⟩
  rw [hc] at he
  obtain rfl : r3 = r' := by simpa using he
  have e1 := exNum_pk_lin rt hr3 exTable3_at_two
  have e2 := exNum_pk_lin rt hr' exTable_at_two
  rw [e1] at e2
  norm_num at e2

/-- Two objects; the second one sets its terms last. -/
noncomputable def exTwo' : List (PyEvent ℝ) :=
  [.newArr exTable.k, .newArr exTable.pk, .newArr [2], .new .s1, .new .s1, .setPkLin 0 0 1, .setTerms 0 2, .setTerms 1 2]

/-- C39 fails: an object runs after another object of the same class has set its terms; the results go to the columns of the other
object and its own columns stay zero. -/
theorem C39_columns_violation (rt : ℕ → ℕ → ℝ × ℝ) (a b : Field) :
    ∃ (h : List (PyEvent ℝ)) (w w' : World ℝ) (r : List (List ℝ)), (World.start ℝ).exec (exNum rt) h = .ok w ∧
      LinReady w 0 .s1 exTable.k exTable.pk ∧ w.columns 0 = some [[2], [0], [0], [0], [0], [0]] ∧
      Expected (exNum rt) .s1 a b exTable.k exTable.pk [2] r ∧
      w.step (exNum rt) (.run 0 a b) = .ok w' ∧ w'.columns 0 = some [[2], [0], [0], [0], [0], [0]] ∧ w'.columns 1 = some ([2] :: r) ∧
      w'.columns 0 ≠ some ([2] :: r) := by
  obtain ⟨w, hw, ho, hcol, hl, ht, hcols, hd⟩ : ∃ w, (World.start ℝ).exec (exNum rt) exTwo' = .ok w ∧
      w.obj 0 = some ⟨.s1, 0, some (3, 4)⟩ ∧ w.columns 0 = some [[2], [0], [0], [0], [0], [0]] ∧
      LinReady w 0 .s1 exTable.k exTable.pk ∧ TermsReady w 1 .s1 [2] ∧ (w.c.terms .s1).cols = [12, 13, 14, 15, 16] ∧
      w.dict 0 = [5, 6, 7, 8, 9, 10] := by
    refine ⟨_, rfl, rfl, rfl, ⟨0, 3, 4, rfl, rfl, rfl, rfl, rfl, fun sl => ?_⟩,
      ⟨1, none, 11, [12, 13, 14, 15, 16], rfl, rfl, rfl, rfl, by decide, ?_, fun sl => ?_⟩, rfl, rfl⟩
    · cases sl
      · show 3 ∉ [12, 13, 14, 15, 16] ∧ 4 ∉ [12, 13, 14, 15, 16]
        decide
      all_goals exact ⟨List.not_mem_nil, List.not_mem_nil⟩
    · exact .cons rfl (.cons rfl (.cons rfl (.cons rfl (.cons rfl .nil))))
    · cases sl
      · show 11 ∉ [12, 13, 14, 15, 16]
        decide
      all_goals exact List.not_mem_nil
  obtain ⟨r, hr⟩ := exNum_run rt exTable_physical.toWF (by norm_num [exTable]) [2] .s1 (by decide) a b
  obtain ⟨w', hs, hc⟩ := C39_last_set (exNum_sized rt) hw ho (by decide) (by decide) hl ht hr
  have hkept : w'.columns 0 = some [[2], [0], [0], [0], [0], [0]] := by
    refine C39_results_kept (h := [.run 0 a b]) hw hcol ⟨?_, w', hs, rfl⟩
    rintro ⟨o, x, c, h1, h2, h3, h4⟩
    rw [ho] at h1 h2
    cases h1
    cases h2
    rw [hd] at h3
    change c ∈ (w.c.terms .s1).cols at h4
    rw [hcols] at h4
    revert h3 h4 c
    decide
  refine ⟨exTwo', w, w', r, hw, hl, hcol, hr, hs, hkept, hc, fun he => ?_⟩
  rw [hkept] at he
  have := exNum_pk_lin rt hr exTable_at_two
  cases he
  norm_num at this

/-- Two objects; the second one sets its terms last, then is deleted and its columns are released. -/
noncomputable def exGone : List (PyEvent ℝ) :=
  [.newArr exTable.k, .newArr exTable.pk, .newArr [2], .new .s1, .new .s1, .setPkLin 0 0 1, .setTerms 0 2, .setTerms 1 2, .del 1,
    .collect 12]

/-- C39 fails with undefined behaviour: an object with spectrum and modes runs after another object of the same class set its terms and was
deleted; the run stores into released memory. -/
theorem C39_dangling_violation (rt : ℕ → ℕ → ℝ × ℝ) (a b : Field) :
    ∃ (h : List (PyEvent ℝ)) (w : World ℝ), (World.start ℝ).exec (exNum rt) h = .ok w ∧ LinReady w 0 .s1 exTable.k exTable.pk ∧
      w.columns 0 = some [[2], [0], [0], [0], [0], [0]] ∧ w.obj 1 = none ∧ (w.step (exNum rt) (.run 0 a b)).isUB := by
  obtain ⟨w, hw, ho, hcol, hl, ho1, ht, hka, hm⟩ : ∃ w, (World.start ℝ).exec (exNum rt) exGone = .ok w ∧
      w.obj 0 = some ⟨.s1, 0, some (3, 4)⟩ ∧ w.columns 0 = some [[2], [0], [0], [0], [0], [0]] ∧
      LinReady w 0 .s1 exTable.k exTable.pk ∧ w.obj 1 = none ∧ w.c.terms .s1 = ⟨1, some 11, [12, 13, 14, 15, 16]⟩ ∧
      w.c.mem 11 = some [2] ∧ w.c.mem 12 = none := by
    refine ⟨_, rfl, rfl, rfl, ⟨0, 3, 4, rfl, rfl, rfl, rfl, rfl, fun sl => ?_⟩, rfl, rfl, rfl, rfl⟩
    cases sl
    · show 3 ∉ [12, 13, 14, 15, 16] ∧ 4 ∉ [12, 13, 14, 15, 16]
      decide
    all_goals exact ⟨List.not_mem_nil, List.not_mem_nil⟩
  refine ⟨exGone, w, hw, hl, hcol, ho1, ?_⟩
  obtain ⟨r, hr⟩ := exNum_run rt exTable_physical.toWF (by norm_num [exTable]) [2] .s1 (by decide) a b
  obtain ⟨d, k, p, -, hlin, hk, hp, hlen, -⟩ := hl
  have hrl := (exNum_sized rt).run .s1 a b _ _ _ _ _ hr
  obtain ⟨r0, rs, rfl⟩ : ∃ r0 rs, r = r0 :: rs := by
    cases r with
    | nil => cases hrl
    | cons r0 rs => exact ⟨r0, rs, rfl⟩
  refine ⟨"store to freed memory", ?_⟩
  simp only [step, ho, runTerms, Kind.slot]
  unfold CState.run
  rw [if_neg (by decide)]
  unfold CState.runCore
  dsimp only
  have e1 : (w.c.say "*** Calculation").arr (some 11) 1 = .ok [2] :=
    CState.arr_some (l := ([2] : List ℝ)) (by rw [CState.say_mem]; exact hka)
  have e2 : (w.c.say "*** Calculation").pkv w.c.lin = .ok ⟨exTable.k.length, exTable.k, exTable.pk⟩ := by
    rw [hlin]
    exact CState.pkv_some (by rw [CState.say_mem]; exact hk) (by rw [CState.say_mem]; exact hp) hlen
  rw [CState.say_terms, ht]
  dsimp only
  have hr' : (exNum rt).run .s1 a b ⟨exTable.k.length, exTable.k, exTable.pk⟩ ⟨0, [], []⟩ ⟨0, [], []⟩ [2] = .ok (r0 :: rs) := hr
  rw [e1, Res.ok_bind, CState.say_lin, e2, Res.ok_bind, bSpectrum_none (by decide), Res.ok_bind, bSpectrum_none (by decide), Res.ok_bind, hr',
    Res.ok_bind]
  unfold CState.storeAll CState.store
  rw [CState.say_mem, hm]
  rfl

/-! ## Concrete cases -/

/-- An object of another class sets its terms and the first object is deep-copied before the run. -/
noncomputable example (rt : ℕ → ℕ → ℝ × ℝ) (a b : Field) : ∃ w r w', (World.start ℝ).exec (exNum rt)
      [.newArr exTable.k, .newArr exTable.pk, .newArr [2], .new .s1, .new .a1, .setPkLin 0 0 1, .write 0 [9, 9, 9, 9, 9], .setTerms 0 2, .setTerms 1 2,
        .deepcopy 0, .setVerbosity "quiet"] = .ok w ∧ w.step (exNum rt) (.run 0 a b) = .ok w' ∧ w'.columns 0 = some ([2] :: r) ∧
      (r.getD 0 []).getD 0 0 = 4 := by
  obtain ⟨r, hr⟩ := exNum_run rt exTable_physical.toWF (by norm_num [exTable]) [2] .s1 (by decide) a b
  have key := C39_history_partial (exNum_sized rt) (i := 0) (kv := 0) (pv := 1) (kt := 2) (lk := exTable.k) (lp := exTable.pk) (ks := [2]) (a := a) (b := b) (r := r)
    (h1 := [.newArr exTable.k, .newArr exTable.pk, .newArr [2], .new .s1, .new .a1]) (h2 := [.write 0 [9, 9, 9, 9, 9]])
    (h3 := [.setTerms 1 2, .deepcopy 0, .setVerbosity "quiet"]) rfl rfl rfl rfl rfl rfl
    ⟨by rintro ⟨o, k, p, h1, h2, h3⟩; cases h1; cases h2; revert h3; decide, _, rfl, rfl⟩ rfl rfl
    ⟨⟨id, by rintro ⟨o, x, h1, h2, h3⟩; cases h1; cases h2; revert h3; show ¬ (Slot.a1 = Slot.s1 ∨ 1 = 0); decide⟩, _, rfl, ⟨id, id⟩, _, rfl, ⟨id, id⟩, _, rfl, rfl⟩
    (by rintro (h | h) <;> cases h) hr
  obtain ⟨w', h1, h2, -⟩ := key
  exact ⟨_, r, w', rfl, h1, h2, exNum_pk_lin rt hr exTable_at_two⟩

/-- Modes first, then the spectrum. -/
noncomputable example (rt : ℕ → ℕ → ℝ × ℝ) (a b : Field) : ∃ w r w', (World.start ℝ).exec (exNum rt)
      [.newArr exTable.k, .newArr exTable.pk, .newArr [2], .new .s1, .new .s1, .setPkLin 1 0 1, .setTerms 1 2, .setTerms 0 2, .setPkLin 0 0 1] = .ok w ∧
      w.step (exNum rt) (.run 0 a b) = .ok w' ∧ w'.columns 0 = some ([2] :: r) ∧ (r.getD 0 []).getD 0 0 = 4 := by
  obtain ⟨r, hr⟩ := exNum_run rt exTable_physical.toWF (by norm_num [exTable]) [2] .s1 (by decide) a b
  have key := C39_history_terms_first_partial (exNum_sized rt) (i := 0) (kv := 0) (pv := 1) (kt := 2) (lk := exTable.k) (lp := exTable.pk) (ks := [2])
    (a := a) (b := b) (r := r) (h1 := [.newArr exTable.k, .newArr exTable.pk, .newArr [2], .new .s1, .new .s1, .setPkLin 1 0 1, .setTerms 1 2]) (h2 := [])
    (h3 := []) rfl rfl rfl rfl rfl rfl rfl rfl rfl rfl (by rintro (h | h) <;> cases h) hr
  obtain ⟨w', h1, h2⟩ := key
  exact ⟨_, r, w', rfl, h1, h2, exNum_pk_lin rt hr exTable_at_two⟩

/-- Results of object 0 stay while object 1 is given another spectrum and other terms. -/
noncomputable example (N : Num ℝ) : ∃ w, (World.start ℝ).exec N
      [.newArr [1], .newArr [2, 3], .new .s1, .new .s1, .setTerms 0 0, .setPkLin 1 1 1, .setTerms 1 1, .clear] = .ok w ∧
      w.columns 0 = some [[1], [N.zero], [N.zero], [N.zero], [N.zero], [N.zero]] :=
  ⟨_, rfl, C39_results_kept (N := N) (h1 := [.newArr [1], .newArr [2, 3], .new .s1, .new .s1, .setTerms 0 0])
    (h := [.setPkLin 1 1 1, .setTerms 1 1, .clear]) rfl rfl
    ⟨id, _, rfl, by rintro ⟨o, x, h1, h2, h3⟩; cases h1; cases h2; revert h3; show ¬ (1 = 0); decide, _, rfl, id, _, rfl, rfl⟩⟩

end Verif
