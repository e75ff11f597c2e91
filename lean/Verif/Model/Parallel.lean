import Verif.Model.Base

/-!
# Parallel regions

The OpenMP regions of the six `run_terms_*` functions all have the same shape: every thread builds its own (threadprivate)
quadrature tables, then the iterations of one `omp for` loop over the requested modes are distributed over the threads; an
iteration uses the tables of its thread and stores its results in the cells of its row of the shared output arrays.

A schedule is a sequence of events.  Storing is separate from computing: the values computed by an iteration wait in a queue of
their thread and reach the shared memory one at a time, so the stores of different threads interleave arbitrarily.
-/

namespace Verif

/-- A cell of the shared memory: array and index. -/
abbrev Cell := ℕ × ℕ

/-- The shared output arrays. -/
abbrev Mem := ℕ → Buf ℝ

/-- `array[i] = v`. -/
noncomputable def Mem.wr (μ : Mem) (c : Cell) (v : ℝ) : Res Mem := do
  let b ← (μ c.1).wr c.2 v
  .ok (Function.update μ c.1 b)

/-- The tables of a thread and one iteration of the loop: new tables and the row of results. -/
structure Work (σ : Type) (m : ℕ) where
  init : Res σ
  body : σ → ℕ → Res (σ × (Fin m → ℝ))

/-- What can happen next: thread `th` runs the `init_*` functions, thread `th` computes iteration `ik`, thread `th` stores the
oldest of its pending results. -/
inductive Event
  | init (th : ℕ)
  | step (th ik : ℕ)
  | commit (th : ℕ)

/-- State of a thread. -/
structure Thread (σ : Type) where
  tables : σ
  pending : List (Cell × ℝ)

/-- State of a parallel region. -/
structure Machine (σ : Type) where
  th : ℕ → Option (Thread σ)
  mem : Mem

/-- The stores of iteration `ik`, in column order; `lay ik c` is the cell of column `c`. -/
def rowWrites {m : ℕ} (lay : ℕ → Fin m → Cell) (ik : ℕ) (row : Fin m → ℝ) : List (Cell × ℝ) :=
  List.ofFn fun c => (lay ik c, row c)

/-- One event. -/
noncomputable def exec {σ : Type} {m : ℕ} (W : Work σ m) (lay : ℕ → Fin m → Cell) (M : Machine σ) : Event → Res (Machine σ)
  | .init th => do
      let s ← W.init
      .ok { M with th := Function.update M.th th (some ⟨s, []⟩) }
  | .step th ik =>
      match M.th th with
      | none => .ub "tables not initialised"
      | some T => do
          let r ← W.body T.tables ik
          .ok { M with th := Function.update M.th th (some ⟨r.1, T.pending ++ rowWrites lay ik r.2⟩) }
  | .commit th =>
      match M.th th with
      | none => .ok M
      | some ⟨_, []⟩ => .ok M
      | some ⟨s, (c, v) :: rest⟩ => do
          let μ ← M.mem.wr c v
          .ok ⟨Function.update M.th th (some ⟨s, rest⟩), μ⟩

/-- A sequence of events. -/
noncomputable def execAll {σ : Type} {m : ℕ} (W : Work σ m) (lay : ℕ → Fin m → Cell) : Machine σ → List Event → Res (Machine σ)
  | M, [] => .ok M
  | M, e :: es => do
      let M ← exec W lay M e
      execAll W lay M es

/-- The iterations executed by a sequence of events. -/
def steps : List Event → List ℕ
  | [] => []
  | .step _ ik :: es => ik :: steps es
  | _ :: es => steps es

/-- Program order, for rows of `m` results; `q th` is the number of pending stores of thread `th` once it has initialised its
tables.  A thread initialises once, before it computes or stores anything; only pending results are stored; at the end (the barrier
that closes `omp for`) nothing is pending. -/
def Ordered (m : ℕ) : (ℕ → Option ℕ) → List Event → Prop
  | q, [] => ∀ th, q th = none ∨ q th = some 0
  | q, .init th :: es => q th = none ∧ Ordered m (Function.update q th (some 0)) es
  | q, .step th _ :: es => ∃ n, q th = some n ∧ Ordered m (Function.update q th (some (n + m))) es
  | q, .commit th :: es => ∃ n, q th = some (n + 1) ∧ Ordered m (Function.update q th (some n)) es

/-- A schedule of the loop `for (ik=0;ik<n;ik++)`: there is at least one thread, program order is respected and every iteration
is executed exactly once, by some thread. -/
def Schedule (m n : ℕ) (es : List Event) : Prop :=
  es ≠ [] ∧ Ordered m (fun _ => none) es ∧ (steps es).Perm (List.range n)

/-- A parallel region entered with shared memory `μ`. -/
noncomputable def region {σ : Type} {m : ℕ} (W : Work σ m) (lay : ℕ → Fin m → Cell) (es : List Event) (μ : Mem) : Res Mem := do
  let M ← execAll W lay ⟨fun _ => none, μ⟩ es
  .ok M.mem

/-- The iterations `lo, ..., lo+len-1` on thread `th`, each followed by its `m` stores. -/
def block (m th lo len : ℕ) : List Event :=
  (List.range' lo len).flatMap fun ik => .step th ik :: List.replicate m (.commit th)

/-- `schedule(static)` with one thread per block length, run one after the other: a thread gets consecutive iterations. -/
def blocks (m : ℕ) : ℕ → ℕ → List ℕ → List Event
  | _, _, [] => []
  | th, lo, len :: rest => (.init th :: block m th lo len) ++ blocks m (th + 1) (lo + len) rest

end Verif
