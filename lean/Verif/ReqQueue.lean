/-
`ReqQueue` (bsp-server/src/req_queue.rs).  This file of the repository is not compiled: the module is
commented out in lib.rs:11, and line 64 calls `Request::new`, which does not exist.  The model keeps the
id the request would carry.
-/
import Verif.Message

namespace Bsp
namespace Queue

/-- `HashMap<RequestId, T>` (req_queue.rs:28, 34): only `insert` and `remove` are used. -/
abbrev Table (α : Type) := RequestId → Option α

/-- `HashMap::insert`. req_queue.rs:39, 62. -/
def Table.insert (t : Table α) (id : RequestId) (a : α) : Table α := fun i => if i = id then some a else t i

/-- `HashMap::remove`: the entry and the map without it. req_queue.rs:55, 67. -/
def Table.remove (t : Table α) (id : RequestId) : Option α × Table α :=
  (t id, fun i => if i = id then none else t i)

/-- `Incoming`: req_queue.rs:26-29. -/
structure Incoming (α : Type) where
  pending : Table α

/-- `Outgoing`: req_queue.rs:31-35. -/
structure Outgoing (α : Type) where
  next : Int32
  pending : Table α

/-- `Default for ReqQueue`, incoming part: req_queue.rs:15-17. -/
def Incoming.new : Incoming α := { pending := fun _ => none }

/-- `Default for ReqQueue`, outgoing part: req_queue.rs:18-21. -/
def Outgoing.new : Outgoing α := { next := 0, pending := fun _ => none }

/-- `Incoming::register`: req_queue.rs:38-40. -/
def Incoming.register (q : Incoming α) (id : RequestId) (data : α) : Incoming α :=
  { pending := q.pending.insert id data }

/-- `Incoming::complete`: req_queue.rs:54-56. -/
def Incoming.complete (q : Incoming α) (id : RequestId) : Option α × Incoming α :=
  let r := q.pending.remove id
  (r.1, { pending := r.2 })

/-- `Incoming::cancel`: req_queue.rs:41-53. -/
def Incoming.cancel (q : Incoming α) (id : RequestId) : Option Response × Incoming α :=
  match q.complete id with
  | (none, q') => (none, q')
  | (some _, q') =>
    (some {
      id := id
      result := none
      error := some { code := ErrorCode.requestCanceled.code, message := "canceled by client", data := none } },
     q')

/-- `Outgoing::register`: req_queue.rs:60-65.  `checked` says whether the addition in line 63 is checked for overflow (debug
builds: `none` is the panic) or wraps (release builds). -/
def Outgoing.register (checked : Bool) (q : Outgoing α) (data : α) : Option (RequestId × Outgoing α) :=
  let id := RequestId.i32 q.next
  let pending := q.pending.insert id data
  if checked = true ∧ q.next = Int32.maxValue then none
  else some (id, { next := q.next + 1, pending })

/-- `Outgoing::complete`: req_queue.rs:66-68. -/
def Outgoing.complete (q : Outgoing α) (id : RequestId) : Option α × Outgoing α :=
  let r := q.pending.remove id
  (r.1, { q with pending := r.2 })

/-! ### Arbitrary use, with what happened (latest first) -/

/-- A call on the incoming queue. bsp-server/src/req_queue.rs:37-57. -/
inductive InOp (α : Type) where
  | register (id : RequestId) (data : α)
  | complete (id : RequestId)
  | cancel (id : RequestId)

/-- A call on the incoming queue and its result. bsp-server/src/req_queue.rs:37-57. -/
inductive InEv (α : Type) where
  | registered (id : RequestId) (data : α)
  | completed (id : RequestId) (res : Option α)
  | cancelled (id : RequestId) (res : Option Response)

/-- One call. bsp-server/src/req_queue.rs:37-57. -/
def Incoming.call (q : Incoming α) : InOp α → InEv α × Incoming α
  | .register id data => (.registered id data, q.register id data)
  | .complete id => let r := q.complete id; (.completed id r.1, r.2)
  | .cancel id => let r := q.cancel id; (.cancelled id r.1, r.2)

/-- A sequence of calls on a fresh queue: what happened, latest first, and the queue.
bsp-server/src/req_queue.rs:12-24, 37-57. -/
def Incoming.run : List (InOp α) → List (InEv α) × Incoming α
  | [] => ([], .new)
  | op :: earlier =>
    let s := run earlier
    let r := s.2.call op
    (r.1 :: s.1, r.2)

/-- A call on the outgoing queue. bsp-server/src/req_queue.rs:59-69. -/
inductive OutOp (α : Type) where
  | register (data : α)
  | complete (id : RequestId)

/-- A call on the outgoing queue and its result. bsp-server/src/req_queue.rs:59-69. -/
inductive OutEv (α : Type) where
  | registered (id : RequestId) (data : α)
  | completed (id : RequestId) (res : Option α)

/-- A sequence of calls (latest first) on a fresh queue: what happened, latest first, and the queue; `none` after the
panic. bsp-server/src/req_queue.rs:12-24, 59-69. -/
def Outgoing.run (checked : Bool) : List (OutOp α) → Option (List (OutEv α) × Outgoing α)
  | [] => some ([], .new)
  | op :: earlier =>
    match run checked earlier with
    | none => none
    | some (evs, q) =>
      match op with
      | .register data =>
        match q.register checked data with
        | none => none
        | some (id, q') => some (.registered id data :: evs, q')
      | .complete id => let r := q.complete id; some (.completed id r.1 :: evs, r.2)

end Queue
end Bsp
