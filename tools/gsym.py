out=[]
p=out.append
p('''import Verif.Model.Gamma2
import Verif.Props.Powers

/-!
# Exchange of the two incoming momenta in the expressions of the second-order loop kernels
-/

set_option linter.unusedSimpArgs false

namespace Verif

theorem WFunc_symm (a b c q : ℝ) : WFunc a b c q = WFunc b a c q := by
  have h1 : -4 * (c * c) * (q * q) - 2 * (a * a - q * q) * (b * b - q * q) = -4 * (c * c) * (q * q) - 2 * (b * b - q * q) * (a * a - q * q) := by ring
  have h2 : a * a * (b * b) + (-(a * a) - b * b + c * c) * (q * q) + q * q * (q * q) =
      b * b * (a * a) + (-(b * b) - a * a + c * c) * (q * q) + q * q * (q * q) := by ring
  unfold WFunc
  dsimp only
  rw [h1, h2]

theorem bigBeta_symm (a b c q : ℝ) : bigBeta a b c q = bigBeta b a c q := by
  have h1 : (a * a - q * q) * (b * b - q * q) = (b * b - q * q) * (a * a - q * q) := by ring
  unfold bigBeta
  dsimp only
  rw [h1]
''')
def sym(nm,un):
    p(f'''theorem {nm}_symm (k1 k2 k3 q : ℝ) : {nm} (pw k1) (pw k2) (pw k3) (pw q) = {nm} (pw k2) (pw k1) (pw k3) (pw q) := by
  unfold {nm} {un}
  try simp only [C01_power, Real.rpow_ofNat]
  ring
''')
for t in 'dt':
    for i in (1,4): sym(f'g2{t}Exact{i}','pw')
    p(f'''theorem g2{t}Exact23_symm (k1 k2 k3 q : ℝ) : g2{t}Exact2 (pw k1) (pw k2) (pw k3) (pw q) = g2{t}Exact3 (pw k2) (pw k1) (pw k3) (pw q) := by
  unfold g2{t}Exact2 g2{t}Exact3 pw
  try simp only [C01_power, Real.rpow_ofNat]
  ring
''')
    for n in ('HighkE','LowkE'): sym(f'g2{t}{n}','pw')
    for i in range(13 if t=='d' else 17): sym(f'g2{t}Poly{i}','pw')
    for i in (3,): sym(f'g2{t}Beta{i}','pw')
    p(f'''theorem g2{t}Beta12_symm (k1 k2 k3 q : ℝ) : g2{t}Beta1 (pw k1) (pw k2) (pw k3) (pw q) = g2{t}Beta2 (pw k2) (pw k1) (pw k3) (pw q) := by
  unfold g2{t}Beta1 g2{t}Beta2 pw
  try simp only [C01_power, Real.rpow_ofNat]
  ring
''')
    p(f'''theorem g2{t}Den_symm (k1 k2 k3 q : ℝ) : g2{t}Den (pw k1) (pw k2) (pw k3) (pw q) = g2{t}Den (pw k2) (pw k1) (pw k3) (pw q) := by
  unfold g2{t}Den pw
  rw [show (k1 ^ 1 + q ^ 1) * (k2 ^ 1 + q ^ 1) * (k3 ^ 1 + q ^ 1) = (k2 ^ 1 + q ^ 1) * (k1 ^ 1 + q ^ 1) * (k3 ^ 1 + q ^ 1) from by ring]
  ring
''')

for t in 'dt':
    p(f"""theorem g2{t}Exact_last_symm (k1 k2 k3 q : ℝ) : {'g2dExact5 (pw k1) (pw k2) (pw k3) (pw q)' if t=='d' else 'g2tExact5 (pw k1) (pw k2) (pw k3) (pw q) + g2tExact6 (pw k1) (pw k2) (pw k3) (pw q)'} =
    {'g2dExact5 (pw k2) (pw k1) (pw k3) (pw q)' if t=='d' else 'g2tExact5 (pw k2) (pw k1) (pw k3) (pw q) + g2tExact6 (pw k2) (pw k1) (pw k3) (pw q)'} := by
  unfold {'g2dExact5' if t=='d' else 'g2tExact5 g2tExact6'} pw
  rw [WFunc_symm (k2 ^ 1) (k1 ^ 1)]
  have h1 : k2 ^ 2 * k1 ^ 2 - (k2 ^ 2 + k1 ^ 2 - k3 ^ 2) * q ^ 2 + q ^ 4 = k1 ^ 2 * k2 ^ 2 - (k1 ^ 2 + k2 ^ 2 - k3 ^ 2) * q ^ 2 + q ^ 4 := by ring
  have h2 : ∀ a b : ℝ, a ^ 2 * q ^ 2 + (b ^ 1 - q ^ 1) * (k3 ^ 1 - q ^ 1) * (b ^ 1 + q ^ 1) * (k3 ^ 1 + q ^ 1) =
      b ^ 2 * k3 ^ 2 - (b ^ 2 - a ^ 2 + k3 ^ 2) * q ^ 2 + q ^ 4 := fun a b => by ring
  rw [h1, h2, h2]
  ring
""")
    p(f"""theorem g2{t}Exact_symm (k1 k2 k3 q : ℝ) : g2{t}Exact k1 k2 k3 q = g2{t}Exact k2 k1 k3 q := by
  have h := g2{t}Exact_last_symm k1 k2 k3 q
  unfold g2{t}Exact
  rw [g2{t}Exact1_symm k1 k2, g2{t}Exact4_symm k1 k2, g2{t}Exact23_symm k1 k2, ← g2{t}Exact23_symm k2 k1]
  linarith
""")
    p(f"""theorem g2{t}Highk_symm (k1 k2 k3 q : ℝ) : g2{t}Highk k1 k2 k3 q = g2{t}Highk k2 k1 k3 q := g2{t}HighkE_symm k1 k2 k3 q

theorem g2{t}Lowk_symm (k1 k2 k3 q : ℝ) : g2{t}Lowk k1 k2 k3 q = g2{t}Lowk k2 k1 k3 q := g2{t}LowkE_symm k1 k2 k3 q

theorem g2{t}Elongate_symm (k1 k2 k3 q : ℝ) : g2{t}Elongate k1 k2 k3 q = g2{t}Elongate k2 k1 k3 q := by
  unfold g2{t}Elongate
  rcases lt_trichotomy k1 k2 with h | h | h
  · rw [if_neg (by simp [h.le, h]), if_pos (by simp [h, h.le])]
  · subst h; rfl
  · rw [if_pos (by simp [h, h.le]), if_neg (by simp [h.le, h])]
""")
    p(f"""theorem g2{t}Beta0_symm (k1 k2 k3 q : ℝ) : g2{t}Beta0 (pw k1) (pw k2) (pw k3) (pw q) = g2{t}Beta0 (pw k2) (pw k1) (pw k3) (pw q) := by
  unfold g2{t}Beta0 pw
  try simp only [C01_power, Real.rpow_ofNat]
  have h1 : ∀ a b : ℝ, a ^ 2 * (b ^ 2 - q ^ 2) + q ^ 2 * (-b ^ 2 + k3 ^ 2 + q ^ 2) = a ^ 2 * b ^ 2 - (a ^ 2 + b ^ 2 - k3 ^ 2) * q ^ 2 + q ^ 4 := fun a b => by ring
  have h2 : ∀ a b : ℝ, a ^ 2 * b ^ 2 + (-a ^ 2 - b ^ 2 + k3 ^ 2) * q ^ 2 + q ^ 4 = a ^ 2 * b ^ 2 - (a ^ 2 + b ^ 2 - k3 ^ 2) * q ^ 2 + q ^ 4 := fun a b => by ring
  have h3 : ∀ a b : ℝ, k3 ^ 2 * (a ^ 2 - q ^ 2) + q ^ 2 * (b ^ 2 - a ^ 2 + q ^ 2) = a ^ 2 * k3 ^ 2 - (a ^ 2 - b ^ 2 + k3 ^ 2) * q ^ 2 + q ^ 4 := fun a b => by ring
  have h4 : ∀ a b : ℝ, k3 ^ 2 * (a ^ 2 - q ^ 2) + q ^ 2 * (-a ^ 2 + b ^ 2 + q ^ 2) = a ^ 2 * k3 ^ 2 - (a ^ 2 - b ^ 2 + k3 ^ 2) * q ^ 2 + q ^ 4 := fun a b => by ring
  have h5 : ∀ a b : ℝ, a ^ 2 * k3 ^ 2 - (-b ^ 2 + a ^ 2 + k3 ^ 2) * q ^ 2 + q ^ 4 = a ^ 2 * k3 ^ 2 - (a ^ 2 - b ^ 2 + k3 ^ 2) * q ^ 2 + q ^ 4 := fun a b => by ring
  simp only [h1, h2, h3, h4, h5]
  rw [show k2 ^ 2 * k1 ^ 2 - (k2 ^ 2 + k1 ^ 2 - k3 ^ 2) * q ^ 2 + q ^ 4 = k1 ^ 2 * k2 ^ 2 - (k1 ^ 2 + k2 ^ 2 - k3 ^ 2) * q ^ 2 + q ^ 4 from by ring]
  generalize Real.sqrt (k1 ^ 2 * k2 ^ 2 - (k1 ^ 2 + k2 ^ 2 - k3 ^ 2) * q ^ 2 + q ^ 4) = s
  generalize Real.sqrt (k1 ^ 2 * k3 ^ 2 - (k1 ^ 2 - k2 ^ 2 + k3 ^ 2) * q ^ 2 + q ^ 4) = s1
  generalize Real.sqrt (k2 ^ 2 * k3 ^ 2 - (k2 ^ 2 - k1 ^ 2 + k3 ^ 2) * q ^ 2 + q ^ 4) = s2
  ring

theorem g2{t}Beta4_symm (k1 k2 k3 q : ℝ) : g2{t}Beta4 (pw k1) (pw k2) (pw k3) (pw q) = g2{t}Beta4 (pw k2) (pw k1) (pw k3) (pw q) := by
  unfold g2{t}Beta4 pw
  rw [bigBeta_symm (k2 ^ 1) (k1 ^ 1), bigBeta_symm {'(k1 ^ 1) (k3 ^ 1)' if t=='d' else '(k3 ^ 1) (k1 ^ 1)'}, bigBeta_symm (k2 ^ 1) (k3 ^ 1){', bigBeta_symm (k1 ^ 1) (k3 ^ 1)' if t=='t' else ''}]
  ring
""")
    n=13 if t=='d' else 17
    p(f"""theorem g2{t}Reg3rd_symm (k1 k2 k3 q : ℝ) : g2{t}Reg3rd k1 k2 k3 q = g2{t}Reg3rd k2 k1 k3 q := by
  unfold g2{t}Reg3rd
  rw [g2{t}Den_symm k1 k2, g2{t}Beta0_symm k1 k2, g2{t}Beta3_symm k1 k2, g2{t}Beta4_symm k1 k2, g2{t}Beta12_symm k1 k2, ← g2{t}Beta12_symm k2 k1,
    {', '.join(f'g2{t}Poly{i}_symm k1 k2' for i in range(n))}]
  ring
""")
    for i in range(3):
        e='' if i==0 else f' * k1 ^ {2*i}'; e2='' if i==0 else f' * k2 ^ {2*i}'
        p(f"""theorem g2{t}Coll{i}_symm (k1 k2 q : ℝ) :
    g2{t}Coll{i} (pw k1) (pw k2) (pw 1) (pw q){e} = g2{t}Coll{i} (pw k2) (pw k1) (pw 1) (pw q){e2} := by
  unfold g2{t}Coll{i} pw
  have h1 : ∀ a b : ℝ, -a ^ 2 + b ^ 2 + q ^ 2 = b ^ 2 - a ^ 2 + q ^ 2 := fun a b => by ring
  have h2 : ∀ a b s : ℝ, -((-(a ^ 2 * q ^ 1) + 2 * b ^ 2 * q ^ 1 + q ^ 3 + 2 * b ^ 1 * s) / (a ^ 2 * q ^ 1 - 2 * b ^ 2 * q ^ 1 - q ^ 3 + 2 * b ^ 1 * s)) =
      (2 * b ^ 2 * q ^ 1 - a ^ 2 * q ^ 1 + q ^ 3 + 2 * b ^ 1 * s) / (2 * b ^ 2 * q ^ 1 - a ^ 2 * q ^ 1 + q ^ 3 - 2 * b ^ 1 * s) := fun a b s => by
    rw [← div_neg]; congr 1 <;> ring
  simp only [C01_power, h1, h2]
  generalize Real.log ((2 * k1 ^ 2 * q ^ 1 - k2 ^ 2 * q ^ 1 + q ^ 3 + 2 * k1 ^ 1 * _) / _) = l1
  generalize Real.log ((2 * k2 ^ 2 * q ^ 1 - k1 ^ 2 * q ^ 1 + q ^ 3 + 2 * k2 ^ 1 * _) / _) = l2
  generalize Real.sqrt (q ^ 2 * (k1 ^ 2 - k2 ^ 2 + q ^ 2)) = s1
  generalize Real.sqrt (q ^ 2 * (k2 ^ 2 - k1 ^ 2 + q ^ 2)) = s2
  generalize Real.log (abs ((k1 ^ 1 + q ^ 1) / (k1 ^ 1 - q ^ 1))) = m1
  generalize Real.log (abs ((k2 ^ 1 + q ^ 1) / (k2 ^ 1 - q ^ 1))) = m2
  {'generalize (q ^ 2 * (k1 ^ 2 - k2 ^ 2 + q ^ 2)) ^ (1.5:ℝ) = r1' if i==1 else 'NOLINE'}
  {'generalize (q ^ 2 * (k2 ^ 2 - k1 ^ 2 + q ^ 2)) ^ (1.5:ℝ) = r2' if i==1 else 'NOLINE'}
  ring
""")
    p(f"""theorem g2{t}Coll_symm (k1 k2 k3 q : ℝ) (h1 : k1 ≠ 0) (h2 : k2 ≠ 0) : g2{t}Coll k1 k2 k3 q = g2{t}Coll k2 k1 k3 q := by
  have e0 : ∀ a b e : ℝ, g2{t}Coll0 (pw a) (pw b) (pw e) (pw q) = g2{t}Coll0 (pw a) (pw b) (pw 1) (pw q) := fun a b e => rfl
  have e1 : ∀ a b e : ℝ, g2{t}Coll1 (pw a) (pw b) (pw e) (pw q) = e ^ 2 * g2{t}Coll1 (pw a) (pw b) (pw 1) (pw q) := fun a b e => by
    have he : pw e 2 = e ^ 2 * pw 1 2 := by simp [pw]
    unfold g2{t}Coll1
    rw [he]
    ring
  have e2 : ∀ a b e : ℝ, g2{t}Coll2 (pw a) (pw b) (pw e) (pw q) = e ^ 4 * g2{t}Coll2 (pw a) (pw b) (pw 1) (pw q) := fun a b e => by
    have he : pw e 4 = e ^ 4 * pw 1 4 := by simp [pw]
    unfold g2{t}Coll2
    rw [he]
    ring
  have s0 := g2{t}Coll0_symm k1 k2 q
  have s1 := g2{t}Coll1_symm k1 k2 q
  have s2 := g2{t}Coll2_symm k1 k2 q
  unfold g2{t}Coll
  rw [e0, e1, e2, e0 k2, e1 k2, e2 k2, s0]
  generalize g2{t}Coll1 (pw k1) (pw k2) (pw 1) (pw q) = x1 at *
  generalize g2{t}Coll1 (pw k2) (pw k1) (pw 1) (pw q) = y1 at *
  generalize g2{t}Coll2 (pw k1) (pw k2) (pw 1) (pw q) = x2 at *
  generalize g2{t}Coll2 (pw k2) (pw k1) (pw 1) (pw q) = y2 at *
  have t1 : (k3 / k2) ^ 2 * x1 = (k3 / k1) ^ 2 * y1 := by field_simp; linear_combination k3 ^ 2 * s1
  have t2 : (k3 / k2) ^ 4 * x2 = (k3 / k1) ^ 4 * y2 := by field_simp; linear_combination k3 ^ 4 * s2
  rw [t1, t2]
""")
p('end Verif')
open('/verif/lean/Verif/Proofs/Gamma2Sym.lean','w').write('\n'.join(l for l in '\n'.join(out).split('\n') if 'NOLINE' not in l)+'\n')
