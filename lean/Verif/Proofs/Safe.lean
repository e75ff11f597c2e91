import Verif.Proofs.Sim
import Verif.Props.FindPk
import Verif.Props.Sigma
import Verif.Props.Quadrature

/-!
# Runs without undefined behaviour
-/

namespace Verif

namespace Res

theorem defined.ok {β : Type} (b : β) : (Res.ok b).defined := ⟨b, rfl⟩

theorem defined.bind {β γ : Type} {r : Res β} {f : β → Res γ} (h : r.defined) (hf : ∀ b, r = .ok b → (f b).defined) :
    (r >>= f).defined := by
  obtain ⟨b, hb⟩ := h
  obtain ⟨c, hc⟩ := hf b hb
  exact ⟨c, by rw [hb, ok_bind, hc]⟩

theorem defined.ite {β : Type} {c : Prop} [Decidable c] {r s : Res β} (hr : c → r.defined) (hs : ¬c → s.defined) :
    (if c then r else s).defined := by
  split
  · exact hr ‹_›
  · exact hs ‹_›

end Res

open Res

theorem rd_defined {α : Type} {a : List α} {i : ℕ} (h : i < a.length) : (rd a i).defined := ⟨_, rd_ok h⟩

theorem forRange_defined {σ : Type} {lo hi : ℕ} {s : σ} {body : ℕ → σ → Res σ} (hle : lo ≤ hi)
    (h : ∀ j s, lo ≤ j → j < hi → (body j s).defined) : (forRange lo hi s body).defined := by
  obtain ⟨s', h1, _⟩ := forRange_inv (P := fun _ _ => True) hle trivial (s := s) (body := body) fun j s hj hj' _ => by
    obtain ⟨s', h'⟩ := h j s hj hj'
    exact ⟨s', h', trivial⟩
  exact ⟨s', h1⟩

theorem sumLoop_defined {n : ℕ} {f : ℕ → Res ℝ} (h : ∀ i < n, (f i).defined) : (sumLoop n f).defined :=
  forRange_defined (Nat.zero_le n) fun j _ _ hj => (h j hj).bind fun _ _ => .ok _

theorem look_safe {t : Pk ℝ} (h : t.WF) (h2 : 2 ≤ t.nk) (k : ℝ) : (look t .poly k).defined := by
  refine (C06_findPk_poly_safe t h h2 [k]).bind fun l hl => rd_defined ?_
  rw [findPk_length hl]
  simp

theorem sigma1_defined {t : Pk ℝ} (h : t.WF) (h1 : 1 ≤ t.nk) (uv k : ℝ) : (sigma1 t uv k).defined := by
  obtain ⟨vs, h3, h4⟩ := C11_sigmad2_safe t h h1 [k] uv
  refine defined.bind ⟨vs, h3⟩ fun l hl => rd_defined ?_
  rw [h3] at hl
  injection hl with hl
  rw [← hl, h4]
  simp

/-- A radial table whose arrays have the announced size. -/
structure GLQ.Fit (g : GLQ ℝ) : Prop where
  hq : g.q.length = g.nq
  hw : g.w.length = g.nq
  hpk : g.pk.length = g.nq
  hn : g.nq < 2 ^ 63

/-- An angular table whose arrays have the announced size. -/
structure GLMu.Fit (g : GLMu ℝ) : Prop where
  hm : g.muref.length = g.nmu
  hw : g.wref.length = g.nmu

theorem gamma1OneLoop_defined {g : GLQ ℝ} (h : g.Fit) (a : Field) (k : ℝ) : (gamma1OneLoop a g k).defined := by
  unfold gamma1OneLoop gamma1Loop1
  refine defined.bind (sumLoop_defined fun i hi => ?_) fun _ _ => .ok _
  have hi : i < g.nq := hi
  refine (rd_defined (by simpa [updateGLQ, h.hq] using hi)).bind fun _ _ => ?_
  refine (rd_defined (by simpa [updateGLQ, h.hpk] using hi)).bind fun _ _ => ?_
  refine (rd_defined (by simpa [updateGLQ, h.hw] using hi)).bind fun _ _ => ?_
  cases a <;> exact .ok _

theorem gamma1TwoLoop_defined {g : GLQ ℝ} (h : g.Fit) (a : Field) (k : ℝ) : (gamma1TwoLoop a g k).defined := by
  unfold gamma1TwoLoop
  refine defined.bind (sumLoop_defined fun i hi => ?_) fun _ _ => .ok _
  have hi : i < g.nq := hi
  refine (rd_defined (by simpa [updateGLQ, h.hq] using hi)).bind fun _ _ => ?_
  refine defined.bind (sumLoop_defined fun j hj => ?_) fun _ _ => ?_
  · have hj : j < g.nq := hj
    refine (rd_defined (by simpa [updateGLQ, h.hq] using hj)).bind fun _ _ => ?_
    refine (rd_defined (by simpa [updateGLQ, h.hw] using hj)).bind fun _ _ => ?_
    exact (rd_defined (by simpa [updateGLQ, h.hpk] using hj)).bind fun _ _ => .ok _
  · refine (rd_defined (by simpa [updateGLQ, h.hw] using hi)).bind fun _ _ => ?_
    exact (rd_defined (by simpa [updateGLQ, h.hpk] using hi)).bind fun _ _ => .ok _

theorem gamma2OneLoop_defined {g : GLQ ℝ} (h : g.Fit) (a : Field) (k1 k2 k3 : ℝ) : (gamma2OneLoop a g k1 k2 k3).defined := by
  unfold gamma2OneLoop
  refine defined.bind (sumLoop_defined fun i hi => ?_) fun _ _ => .ok _
  refine (rd_defined (by rw [h.hq]; exact hi)).bind fun _ _ => ?_
  refine (rd_defined (by rw [h.hw]; exact hi)).bind fun _ _ => ?_
  exact (rd_defined (by rw [h.hpk]; exact hi)).bind fun _ _ => .ok _

theorem updateGLMu_fit {g : GLMu ℝ} (h : g.Fit) (a b : ℝ) : (updateGLMu g a b).Fit := ⟨h.hm, h.hw⟩

/-- The double loop leaves a well-formed angular table. -/
theorem quadLoop_fit {ι : Type} {half : Bool} {g : GLQ ℝ} {gm : GLMu ℝ} {kern : ℕ → ℝ → Res (ι → ℝ)}
    {extra : ℕ → Res (ι → ℝ)} {wt : ℝ → ℝ → ℝ} (hx : g.x.length = g.nq) (hw : g.w.length = g.nq) (hn : g.nq < 2 ^ 63) (hm : gm.Fit)
    (hk : ∀ iq < g.nq, ∀ mu, (kern iq mu).defined) (he : ∀ iq < g.nq, (extra iq).defined) :
    ∃ s, quadLoop half g gm kern extra wt = .ok s ∧ s.1.Fit := by
  rw [quadLoop_eq]
  exact forRange_inv (P := fun _ s => s.1.Fit) (Nat.zero_le g.nq) (s := (gm, fun _ : ι => (0 : ℝ)))
    (body := quadBody half g kern extra wt) hm fun iq s _ hiq hs => by
      have : ∃ r, muRange half g.x g.nq (g.x[iq]'(by omega)) = .ok r := by
        rw [← hx]
        exact C16_muRange_safe half g.x _ (by omega) (by omega)
      obtain ⟨r, hr⟩ := this
      unfold quadBody
      rw [rd_ok (by omega), ok_bind, hr, ok_bind]
      rcases r with _ | ⟨lo, hi⟩
      · exact ⟨s, rfl, hs⟩
      · dsimp only
        have hf := updateGLMu_fit hs lo hi
        obtain ⟨v, hv⟩ : (forRange 0 (updateGLMu s.1 lo hi).nmu (fun _ : ι => (0 : ℝ)) fun imu acc => do
            let mu ← rd (updateGLMu s.1 lo hi).mu imu
            let kr ← kern iq mu
            let w ← rd (updateGLMu s.1 lo hi).w imu
            .ok (fun i : ι => acc i + kr i * w)).defined := by
          refine forRange_defined (Nat.zero_le _) fun imu acc _ himu => ?_
          have himu : imu < s.1.nmu := himu
          refine (rd_defined (by simpa [updateGLMu, hs.hm] using himu)).bind fun mu _ => ?_
          refine (hk iq hiq mu).bind fun _ _ => ?_
          exact (rd_defined (by simpa [updateGLMu, hs.hw] using himu)).bind fun _ _ => .ok _
        rw [hv, ok_bind]
        obtain ⟨ex, hex⟩ := he iq hiq
        rw [hex, ok_bind, rd_ok (by omega), ok_bind]
        exact ⟨_, rfl, hf⟩

theorem noExtra_defined {ι : Type} (iq : ℕ) : (noExtra (ι := ι) iq).defined := .ok _

theorem quadLoop_update {ι : Type} {half : Bool} {g : GLQ ℝ} {gm : GLMu ℝ} {kern : ℕ → ℝ → Res (ι → ℝ)}
    {extra : ℕ → Res (ι → ℝ)} {wt : ℝ → ℝ → ℝ} {k : ℝ} (hg : g.Fit) (hm : gm.Fit)
    (hk : ∀ iq < g.nq, ∀ mu, (kern iq mu).defined) (he : ∀ iq < g.nq, (extra iq).defined) :
    (quadLoop half (updateGLQ g k) gm kern extra wt).defined := by
  obtain ⟨s, h, _⟩ := quadLoop_fit (half := half) (wt := wt) (g := updateGLQ g k) (by simp [updateGLQ, hg.hq]) hg.hw hg.hn hm hk he
  exact ⟨s, h⟩

/-- The three reads that open every kernel. -/
theorem GLQ.Fit.reads {g : GLQ ℝ} (h : g.Fit) {iq : ℕ} (hi : iq < g.nq) (k : ℝ) :
    (rd (updateGLQ g k).x iq).defined ∧ (rd (updateGLQ g k).q iq).defined ∧ (rd (updateGLQ g k).pk iq).defined :=
  ⟨rd_defined (by simpa [updateGLQ, h.hq] using hi), rd_defined (by simpa [updateGLQ, h.hq] using hi),
    rd_defined (by simpa [updateGLQ, h.hpk] using hi)⟩

section terms

variable {t : Pk ℝ} (h : t.WF) (h2 : 2 ≤ t.nk)
include h h2

theorem calcGamma2Tree_defined (a b : Field) {g : GLQ ℝ} {gm : GLMu ℝ} (hg : g.Fit) (hm : gm.Fit) (k : ℝ) :
    (calcGamma2Tree t .poly a b g gm k).defined := by
  unfold calcGamma2Tree
  refine defined.bind (quadLoop_update hg hm (fun iq hi mu => ?_) fun iq _ => noExtra_defined iq) fun _ _ => .ok _
  obtain ⟨r1, r2, r3⟩ := hg.reads hi k
  exact r1.bind fun _ _ => r2.bind fun _ _ => r3.bind fun _ _ => (look_safe h h2 _).bind fun _ _ => .ok _

omit h h2 in
theorem gamma2StdPT_defined {gd gt : GLQ ℝ} (hd : gd.Fit) (ht : gt.Fit) (a : Field) (n : ℕ) (k1 k2 k3 : ℝ) :
    (gamma2StdPT gd gt a n k1 k2 k3).defined := by
  unfold gamma2StdPT
  refine defined.ite (fun _ => .ok _) fun _ => defined.ite (fun _ => ?_) fun _ => .ok _
  cases a
  · exact gamma2OneLoop_defined hd _ _ _ _
  · exact gamma2OneLoop_defined ht _ _ _ _

omit h h2 in
theorem other_defined {a b : Field} {va : ℝ} {vb : Res ℝ} (hb : vb.defined) : (other a b va vb).defined := by
  unfold other
  exact defined.ite (fun _ => .ok _) fun _ => hb

theorem calcGamma2Loop_defined {gd gt : GLQ ℝ} (hd : gd.Fit) (ht : gt.Fit) (a b : Field) {g : GLQ ℝ} {gm : GLMu ℝ} (hg : g.Fit)
    (hm : gm.Fit) (k : ℝ) : (calcGamma2Loop t .poly gd gt a b g gm k).defined := by
  unfold calcGamma2Loop
  refine defined.bind (quadLoop_update hg hm (fun iq hi mu => ?_) fun iq _ => noExtra_defined iq) fun _ _ => .ok _
  obtain ⟨r1, r2, r3⟩ := hg.reads hi k
  refine r1.bind fun _ _ => r2.bind fun _ _ => r3.bind fun _ _ => (look_safe h h2 _).bind fun _ _ => ?_
  refine (gamma2StdPT_defined hd ht _ _ _ _ _).bind fun _ _ => (gamma2StdPT_defined hd ht _ _ _ _ _).bind fun _ _ => ?_
  refine (other_defined (gamma2StdPT_defined hd ht _ _ _ _ _)).bind fun _ _ => ?_
  exact (other_defined (gamma2StdPT_defined hd ht _ _ _ _ _)).bind fun _ _ => .ok _

theorem calcBias_fit (a : Field) (kn : BiasKernel) (half : Bool) {g : GLQ ℝ} {gm : GLMu ℝ} (hg : g.Fit) (hm : gm.Fit) (k : ℝ) :
    ∃ r, calcBias t .poly a kn half g gm k = .ok r ∧ r.1.1.Fit ∧ r.1.2.Fit := by
  obtain ⟨s, h1, h3⟩ := quadLoop_fit (half := half) (g := updateGLQ g k) (kern := kernelPkBias t .poly kn a (updateGLQ g k))
    (extra := noExtra) (wt := fun x w => if half then x * x * x * w * 2 else x * x * x * w) (by simp [updateGLQ, hg.hq])
    hg.hw hg.hn hm (fun iq hi mu => by
      obtain ⟨r1, r2, r3⟩ := hg.reads hi k
      exact r1.bind fun _ _ => r2.bind fun _ _ => r3.bind fun _ _ => (look_safe h h2 _).bind fun _ _ => .ok _)
    fun iq _ => noExtra_defined iq
  unfold calcBias
  dsimp only
  rw [h1]
  exact ⟨_, rfl, ⟨hg.hq, hg.hw, hg.hpk, hg.hn⟩, h3⟩

theorem calcA1_defined {g : GLQ ℝ} {gm : GLMu ℝ} (hg : g.Fit) (hm : gm.Fit) (k : ℝ) :
    (calcA1 t .poly .poly g gm k).defined := by
  unfold calcA1
  refine (look_safe h h2 _).bind fun pk _ => ?_
  refine defined.bind (quadLoop_update hg hm (fun iq hi mu => ?_) fun iq hi => ?_) fun _ _ => .ok _
  · obtain ⟨r1, r2, r3⟩ := hg.reads hi k
    exact r1.bind fun _ _ => r3.bind fun _ _ => (look_safe h h2 _).bind fun _ _ => .ok _
  · obtain ⟨r1, r2, r3⟩ := hg.reads hi k
    exact r1.bind fun _ _ => r3.bind fun _ _ => .ok _

omit h h2 in
theorem calcB_defined {dt tt : Pk ℝ} (hd : dt.WF) (hd2 : 2 ≤ dt.nk) (ht : tt.WF) (ht2 : 2 ≤ tt.nk) {g : GLQ ℝ} {gm : GLMu ℝ}
    (hg : g.Fit) (hm : gm.Fit) (k : ℝ) : (calcB dt tt .poly g gm k).defined := by
  unfold calcB
  refine defined.bind (quadLoop_update hg hm (fun iq hi mu => ?_) fun iq _ => noExtra_defined iq) fun _ _ => .ok _
  obtain ⟨r1, r2, r3⟩ := hg.reads hi k
  exact r1.bind fun _ _ => r2.bind fun _ _ => (look_safe hd hd2 _).bind fun _ _ => (look_safe hd hd2 _).bind fun _ _ =>
    (look_safe ht ht2 _).bind fun _ _ => (look_safe ht ht2 _).bind fun _ _ => .ok _

theorem bispectrumI_defined (uv : ℝ) {g1 gd gt : GLQ ℝ} (h1 : g1.Fit) (hd : gd.Fit) (ht : gt.Fit) (k p kp : ℝ) :
    (bispectrumI t .poly uv g1 gd gt k p kp).defined := by
  have hs : ∀ k, (sigma1 t uv k).defined := sigma1_defined h (by omega) uv
  have hr : ∀ (c : Prop) k s, (g1RegIf c g1 k s).defined := fun c k s => by
    unfold g1RegIf
    split
    · exact (gamma1OneLoop_defined h1 _ _).bind fun _ _ => (gamma1OneLoop_defined h1 _ _).bind fun _ _ => .ok _
    · exact .ok _
  have h2d : ∀ k1 k2 k3 s, (g2RegOne .delta gd k1 k2 k3 s).defined := fun k1 k2 k3 s =>
    (gamma2OneLoop_defined hd _ _ _ _).bind fun _ _ => .ok _
  have h2t : ∀ k1 k2 k3 s, (g2RegOne .theta gt k1 k2 k3 s).defined := fun k1 k2 k3 s =>
    (gamma2OneLoop_defined ht _ _ _ _).bind fun _ _ => .ok _
  unfold bispectrumI
  refine (hs _).bind fun _ _ => (hs _).bind fun _ _ => (hs _).bind fun _ _ => ?_
  refine (look_safe h h2 _).bind fun _ _ => (look_safe h h2 _).bind fun _ _ => (look_safe h h2 _).bind fun _ _ => ?_
  refine defined.bind ?_ fun _ _ => defined.bind ?_ fun _ _ => .ok _
  · exact (hr _ _ _).bind fun _ _ => (hr _ _ _).bind fun _ _ => (hr _ _ _).bind fun _ _ => .ok _
  · unfold gamma2Reg
    refine defined.ite (fun _ => ?_) fun _ => .ok _
    exact (h2d _ _ _ _).bind fun _ _ => (h2t _ _ _ _).bind fun _ _ => (h2d _ _ _ _).bind fun _ _ => (h2t _ _ _ _).bind fun _ _ =>
      (h2d _ _ _ _).bind fun _ _ => (h2t _ _ _ _).bind fun _ _ => .ok _

omit h h2 in
theorem calcA2I_defined {bi : ℝ → ℝ → ℝ → Res BiOut} (hb : ∀ k p kp, (bi k p kp).defined) {g : GLQ ℝ} {gm : GLMu ℝ} (hg : g.Fit)
    (hm : gm.Fit) (k : ℝ) : (calcA2I bi g gm k).defined := by
  unfold calcA2I
  refine defined.bind (quadLoop_update hg hm (fun iq hi mu => ?_) fun iq _ => noExtra_defined iq) fun _ _ => .ok _
  obtain ⟨r1, r2, r3⟩ := hg.reads hi k
  exact r1.bind fun _ _ => r2.bind fun _ _ => (hb _ _ _).bind fun _ _ => .ok _

theorem kernelGamma3_defined (a b : Field) (k qmin qmax : ℝ) (xx : Fin 5 → ℝ) :
    (kernelGamma3 t .poly a b k qmin qmax xx).defined := by
  unfold kernelGamma3
  dsimp only
  refine defined.ite (fun _ => ?_) fun _ => .ok _
  exact (look_safe h h2 _).bind fun _ _ => (look_safe h h2 _).bind fun _ _ => (look_safe h h2 _).bind fun _ _ => .ok _

theorem kernelA2II_defined (uv k qmin qmax : ℝ) (xx : Fin 5 → ℝ) : (kernelA2II t .poly uv k qmin qmax xx).defined := by
  have hs : ∀ k, (sigma1 t uv k).defined := sigma1_defined h (by omega) uv
  have hl : ∀ f kk qq, (biLeg t .poly f kk qq).defined := fun f kk qq =>
    (look_safe h h2 _).bind fun _ _ => (look_safe h h2 _).bind fun _ _ => (look_safe h h2 _).bind fun _ _ => .ok _
  have hb : ∀ k1 k2 k3 qq a b c, (biSum t .poly k1 k2 k3 qq a b c).defined := fun k1 k2 k3 qq a b c =>
    defined.bind ((look_safe h h2 _).bind fun _ _ => (hl _ _ _).bind fun _ _ => (hl _ _ _).bind fun _ _ =>
      (hl _ _ _).bind fun _ _ => .ok _) fun _ _ => .ok _
  unfold kernelA2II
  dsimp only
  refine defined.ite (fun _ => .ok _) fun _ => ?_
  refine (hs _).bind fun _ _ => (hs _).bind fun _ _ => (hs _).bind fun _ _ => ?_
  refine defined.ite (fun _ => .ok _) fun _ => ?_
  exact (hb _ _ _ _ _ _ _).bind fun _ _ => (hb _ _ _ _ _ _ _).bind fun _ _ => (hb _ _ _ _ _ _ _).bind fun _ _ =>
    (hb _ _ _ _ _ _ _).bind fun _ _ => (hb _ _ _ _ _ _ _).bind fun _ _ => (hb _ _ _ _ _ _ _).bind fun _ _ =>
    (hb _ _ _ _ _ _ _).bind fun _ _ => (hb _ _ _ _ _ _ _).bind fun _ _ => .ok _

theorem initGLQ_fit (rt : ℕ → ℝ × ℝ) {p : Precision ℝ} (hp : p.interpol = .poly) (hn : p.n < 2 ^ 63) :
    ∃ g, initGLQ rt t p = .ok g ∧ g.Fit ∧ g.nq = p.n := by
  obtain ⟨r, hr⟩ : (glqRange t p).defined := by
    unfold glqRange
    refine defined.ite (fun _ => ?_) fun _ => .ok _
    have := h.hk; have := h.hsize
    have hm : sizeMod = 2 ^ 64 := rfl
    refine (rd_defined (by omega)).bind fun _ _ => (rd_defined ?_).bind fun _ _ => .ok _
    rw [subSize_eq (by omega) (by omega)]
    omega
  unfold initGLQ
  rw [hr, ok_bind]
  dsimp only
  rw [nodesWeights_eq rt _ _ _ _ p.n hn (by simp [malloc]) (by simp [malloc]), ok_bind]
  dsimp only
  rw [contents_map_some, ok_bind, contents_map_some, ok_bind, hp]
  obtain ⟨pk, hpk⟩ := C06_findPk_poly_safe t h h2 (((List.range p.n).map (nodeAt rt (Histo.log r.1) (Histo.log r.2) p.n)).map Histo.exp)
  rw [hpk, ok_bind]
  exact ⟨_, rfl, ⟨by simp, by simp, by rw [findPk_length hpk]; simp, hn⟩, rfl⟩

omit h h2 in
theorem initGLMu_fit (rt : ℕ → ℝ × ℝ) {n : ℕ} (hn : n < 2 ^ 63) : ∃ g, initGLMu rt n = .ok g ∧ g.Fit ∧ g.nmu = n := by
  rw [initGLMu_eq rt n hn]
  exact ⟨_, rfl, ⟨by simp, by simp⟩, rfl⟩

end terms

end Verif
