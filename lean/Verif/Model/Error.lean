import Verif.Core
/-! Model of DevIL/src-IL/src/il_error.cpp. -/
namespace DevIL.Error

/-- il_error.cpp:17 -/
abbrev stackSize : Nat := 32

/-- The globals `ilErrorNum` (il_error.cpp:20) and `ilErrorPlace` (il_error.cpp:21).
An `ILenum` is a natural number; the width of the enum is irrelevant here. -/
structure St where
  num : List Nat
  place : Int
  deriving DecidableEq

/-- Initial values of the globals, il_error.cpp:20-21 (static storage: zeroed). -/
def init : St := { num := List.replicate stackSize 0, place := -1 }

/-- A C `int` used as an array index: negative is outside every array.  For il_error.cpp:26-57. -/
def index (i : Int) (f : Fault) : C Nat := if i < 0 then .error f else .ok i.toNat

/-- il_error.cpp:32-34, `for (i = 0; i < IL_ERROR_STACK_SIZE - 2; i++) ilErrorNum[i] = ilErrorNum[i+1];` -/
def shift (num : List Nat) : C (List Nat) :=
  loopN (stackSize - 2) (fun i a => do
    let v ← rd a (i + 1)
    wr a i v) num

/-- `ilSetError`, il_error.cpp:26-40. -/
def ilSetError (s : St) (e : Nat) : C St := do
  let place := s.place + 1
  let (num, place) ←
    if place ≥ (stackSize : Int) then do
      let num ← shift s.num
      pure (num, (stackSize : Int) - 1)
    else pure (s.num, place)
  let i ← index place .oobWrite
  let num ← wr num i e
  pure { num := num, place := place }

/-- `ilGetError`, il_error.cpp:44-56 (`IL_NO_ERROR` is 0). -/
def ilGetError (s : St) : C (Nat × St) :=
  if s.place ≥ 0 then do
    let i ← index s.place .oobRead
    let v ← rd s.num i
    pure (v, { s with place := s.place - 1 })
  else pure (0, s)

/-- A call that concerns the error queue.  il_error.cpp:26, 51. -/
inductive Op where
  | set (e : Nat)
  | get
  deriving DecidableEq

/-- A history of calls; the outputs of the `ilGetError` calls, in order, and the final state.  A history is not in the code. -/
def run : St → List Op → C (List Nat × St)
  | s, [] => .ok ([], s)
  | s, .set e :: ops => do
      let s ← ilSetError s e
      run s ops
  | s, .get :: ops => do
      let (v, s) ← ilGetError s
      let (vs, s) ← run s ops
      pure (v :: vs, s)

end DevIL.Error
