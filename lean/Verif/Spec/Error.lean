import Verif.Model.Error
namespace DevIL.Error

/-! ### Specification: a stack of error codes, newest first, holding the newest `cap`. -/
namespace Spec

/-- What the user sees: `ilGetError` takes the newest pending error, or 0 (`IL_NO_ERROR`). A new
error goes on top; if more than `cap` are pending the oldest is forgotten. -/
def run (cap : Nat) : List Nat → List Op → List Nat × List Nat
  | p, [] => ([], p)
  | p, .set e :: ops => run cap ((e :: p).take cap) ops
  | [], .get :: ops => let r := run cap [] ops; (0 :: r.1, r.2)
  | e :: p, .get :: ops => let r := run cap p ops; (e :: r.1, r.2)

/-- The unbounded stack. -/
def runUnbounded : List Nat → List Op → List Nat × List Nat
  | p, [] => ([], p)
  | p, .set e :: ops => runUnbounded (e :: p) ops
  | [], .get :: ops => let r := runUnbounded [] ops; (0 :: r.1, r.2)
  | e :: p, .get :: ops => let r := runUnbounded p ops; (e :: r.1, r.2)

/-- At no point of the history are more than `cap` errors pending. -/
def Fits (cap : Nat) : Nat → List Op → Prop
  | n, [] => n ≤ cap
  | n, .set _ :: ops => n ≤ cap ∧ Fits cap (n + 1) ops
  | n, .get :: ops => n ≤ cap ∧ Fits cap (n - 1) ops

instance (cap : Nat) : ∀ n ops, Decidable (Fits cap n ops)
  | n, [] => inferInstanceAs (Decidable (n ≤ cap))
  | n, .set _ :: ops =>
      haveI := instDecidableFits cap (n + 1) ops
      inferInstanceAs (Decidable (n ≤ cap ∧ Fits cap (n + 1) ops))
  | n, .get :: ops =>
      haveI := instDecidableFits cap (n - 1) ops
      inferInstanceAs (Decidable (n ≤ cap ∧ Fits cap (n - 1) ops))

/-- Every recorded code is a real error, not `IL_NO_ERROR`. -/
def RealErrors (ops : List Op) : Prop := ∀ e, Op.set e ∈ ops → e ≠ 0

end Spec

end DevIL.Error
