import Verif.Model.Common

/-! Vocabulary for statements on power spectrum tables. -/

namespace Verif

/-- The arrays of a table have the announced length (smaller than the address space). -/
structure Pk.WF {α : Type} (t : Pk α) : Prop where
  hk : t.k.length = t.nk
  hpk : t.pk.length = t.nk
  hsize : t.nk < 2 ^ 62

/-- A table of strictly increasing wavenumbers. -/
structure Pk.Increasing (t : Pk ℝ) : Prop extends Pk.WF t where
  incr : t.k.Pairwise (· < ·)

/-- A table of strictly increasing positive wavenumbers. -/
structure Pk.Physical (t : Pk ℝ) : Prop extends Pk.Increasing t where
  kpos : ∀ k ∈ t.k, 0 < k

end Verif
