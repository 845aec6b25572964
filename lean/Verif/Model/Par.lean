import Verif.Core.Res
/-!
Model of rayon's `(0..n).into_par_iter().map(f).collect::<Vec<_>>()`.

The closures the library passes are pure functions of shared immutable data, so the only freedom of
the scheduler that can matter is the order in which tasks run; task `i`'s result goes to slot `i`.
A schedule is the list `order` of task indices (any permutation of `0..n`). When a task panics the
remaining ones are not needed: rayon re-raises the panic.
-/
namespace Imgproc

/-- run the tasks in the given order, each writing its own slot -/
def runTasks {α} (f : Nat → Res α) (order : List Nat) (slots : List (Option α)) :
    Res (List (Option α)) :=
  forList order slots fun i slots => do
    let v ← f i
    .ok (slots.set i (some v))

/-- gather the slots in index order; an unfilled slot is a schedule that did not run every task -/
def gather {α} : List (Option α) → Res (List α)
  | [] => .ok []
  | none :: _ => panic .explicit
  | some a :: rest => do
    let r ← gather rest
    .ok (a :: r)

/-- `(0..n).into_par_iter().map(f).collect()` under schedule `order` -/
def parCollect {α} (order : List Nat) (n : Nat) (f : Nat → Res α) : Res (List α) := do
  let slots ← runTasks f order (List.replicate n none)
  gather slots

end Imgproc
