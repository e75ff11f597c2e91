import Verif.Proofs.NumSized
import Verif.Props.Safety

/-!
# The numerical content of the runs is defined
-/

namespace Verif

/-- Schedules for every number of modes. -/
def Schedules (es : ℕ → ℕ → List Event) : Prop := ∀ m n, Schedule m n (es m n)

/-- One thread. -/
def serial (m n : ℕ) : List Event := blocks m 0 0 [n]

theorem serial_schedules : Schedules serial := fun m n => by
  have := C43_static_schedule m [n] (by simp)
  simpa [serial] using this

theorem zeroCols_room (κ : Kind) (ks : List ℝ) (N : ℕ) (hN : κ.widths.length + 1 = N) (hw : ∀ m ∈ κ.widths, 1 ≤ m) :
    Room N ks.length (zeroCols κ ks) := by
  intro i hi
  cases i with
  | zero => simp [zeroCols]
  | succ j =>
    have hj : j < κ.widths.length := by omega
    simp only [zeroCols, List.length_replicate]
    rw [List.getD_eq_getElem _ _ hj]
    exact Nat.le_mul_of_pos_right _ (hw _ (List.getElem_mem hj))

/-- Every run is defined when the table has two modes, all interpolation modes are `poly`, and, for B, both spectra have two modes. -/
theorem driverNum_defined {cfg : Cfg ℝ} {rt : ℕ → ℕ → ℝ × ℝ} {q1 : Cuba ℝ} {q2 : Cuba (Fin 12 → ℝ)} {es : ℕ → ℕ → List Event}
    {t : Pk ℝ} {ks : List ℝ} (he : Env.Ok ⟨cfg, rt, t, ks⟩) (h1 : CubaSafe q1) (h2 : CubaSafe q2) (hes : Schedules es) (sl : Slot)
    (a b : Field) (d e : Pk ℝ) (hb : sl = .b → d.WF ∧ 2 ≤ d.nk ∧ e.WF ∧ 2 ≤ e.nk) :
    ∃ r, (driverNum cfg rt q1 q2 es).run sl a b t d e ks = .ok r := by
  have r5 : ∀ κ : Kind, κ.widths = [1, 1, 5] → RoomFlat 5 ks.length (zeroCols κ ks) := fun κ hκ => by
    refine ⟨fun i hi => ?_, ?_⟩
    · exact zeroCols_room κ ks 4 (by rw [hκ]; rfl) (by rw [hκ]; decide) i (by omega)
    · simp [zeroCols, hκ]
  cases sl
  · obtain ⟨ν, hν⟩ := C59_one_loop he a b (hes 3 _) (zeroCols_room .s1 ks 6 rfl (by decide))
    obtain ⟨r, hr⟩ := readCols_defined (runTerms1_size hν)
    refine ⟨r, ?_⟩
    simp only [driverNum]
    rw [hν, Res.ok_bind]
    exact hr
  · obtain ⟨ν, hν⟩ := C59_two_loop he h1 a b (hes 7 _) (zeroCols_room .s2 ks 11 rfl (by decide))
    obtain ⟨r, hr⟩ := readCols_defined (runTerms2_size hν)
    refine ⟨r, ?_⟩
    simp only [driverNum]
    rw [hν, Res.ok_bind]
    exact hr
  · obtain ⟨ν, hν⟩ := C59_bias he (hes 8 _) (zeroCols_room .bias ks 11 rfl (by decide))
    obtain ⟨r, hr⟩ := readCols_defined (runTermsBias_size hν)
    refine ⟨r, ?_⟩
    simp only [driverNum]
    rw [hν, Res.ok_bind]
    exact hr
  · obtain ⟨ν, hν⟩ := C59_A_one_loop he (hes 5 _) (r5 .a1 rfl)
    obtain ⟨r, hr⟩ := readCols_defined (runTermsA1_size hν)
    refine ⟨r, ?_⟩
    simp only [driverNum]
    rw [hν, Res.ok_bind]
    exact hr
  · obtain ⟨ν, hν⟩ := C59_A_two_loop he h2 (hes 5 _) (r5 .a2 rfl)
    obtain ⟨r, hr⟩ := readCols_defined (runTermsA2_size hν)
    refine ⟨r, ?_⟩
    simp only [driverNum]
    rw [hν, Res.ok_bind]
    exact hr
  · obtain ⟨b1, b2, b3, b4⟩ := hb rfl
    obtain ⟨ν, hν⟩ := C59_B he b1 b2 b3 b4 (hes 9 _) (μ := zeroCols .b1 ks)
      ⟨fun i hi => zeroCols_room .b1 ks 4 rfl (by decide) i (by omega), by simp [zeroCols, Kind.widths, Kind.cls, clsB, List.lookup]⟩
    obtain ⟨r, hr⟩ := readCols_defined (runTermsB_size hν)
    refine ⟨r, ?_⟩
    simp only [driverNum]
    rw [hν, Res.ok_bind]
    exact hr

/-- The column `pk_lin` of a one-loop run is the spectrum looked up at the modes. -/
theorem driverNum_pk_lin {cfg : Cfg ℝ} {rt : ℕ → ℕ → ℝ × ℝ} {q1 : Cuba ℝ} {q2 : Cuba (Fin 12 → ℝ)} {es : ℕ → ℕ → List Event}
    {t : Pk ℝ} {ks : List ℝ} (hes : Schedules es) {a b : Field} {d e : Pk ℝ} {r : List (List ℝ)}
    (h : (driverNum cfg rt q1 q2 es).run .s1 a b t d e ks = .ok r) {ik : ℕ} (hik : ik < ks.length) :
    ∃ pl, findPk t ks (cfg.interp .spectrum_1loop) = .ok pl ∧ (r.getD 0 []).getD ik 0 = pl.getD ik 0 := by
  obtain ⟨ν, h1, h2⟩ := Res.bind_eq_ok.1 h
  obtain ⟨pl, _, _, _, _, _, _, _, _, g1, -, -, -, -, -, -, -, g2, -⟩ :=
    C45_one_loop (e := ⟨cfg, rt, t, ks⟩) (zeroCols_room .s1 ks 6 rfl (by decide)) (hes 3 _) h1 hik
  exact ⟨pl, g1, readCols_cell h2 (by decide) g2⟩

end Verif
