/-
C83: what has been received can be sent on.  A message that the library has decoded, encoded again and
decoded by the next reader, is the same message, however it was written originally; the exception are the
requests that are written without params (see C13).
-/
import Verif.Received
import Verif.Props.Peer

set_option linter.unusedSectionVars false

namespace Bsp
open Json
open Spec (IdOf ReqMeaning NotMeaning keys Fits FitsAll Keeps)

/-! ### What has been decoded is plain and wire-representable -/

section
variable [Ext]

theorem reqMeaning_plain {id : RequestId} {m : String} {p : Value} {r : Request} (h : ReqMeaning id m p r) :
    Spec.PlainMessage (.request r) := by
  cases h with
  | «initialize» h => exact InitializeBuild.plain_of_dec h
  | run h => exact BuildTargetRun.plain_of_dec h
  | test h => exact BuildTargetTest.plain_of_dec h
  | _ => trivial

theorem notMeaning_plain {m : String} {p : Value} {n : Notification} (h : NotMeaning m p n) :
    Spec.PlainMessage (.notification n) := by
  cases h with
  | taskStart h => exact TaskStart.plain_of_dec h
  | taskFinish h => exact TaskFinish.plain_of_dec h
  | taskProgress h => exact TaskProgress.plain_of_dec h
  | didChange h => exact BuildTargetDidChange.plain_of_dec h
  | publishDiagnostics h => exact PublishDiagnostics.plain_of_dec h
  | _ => trivial

theorem ResponseError.dec_inv {j : Json} {x : ResponseError} (h : dec j = some x) :
    ∃ s, structSrc fields j = some s ∧ s.req 0 "code" decI32 = some x.code ∧
      s.req 1 "message" decStr = some x.message ∧ s.opt 2 "data" decValue = some x.data := by
  simp only [dec, Option.bind_eq_bind, Option.bind_eq_some_iff] at h
  obtain ⟨s, hs, a0, h0, a1, h1, a2, h2, e⟩ := h
  cases e
  exact ⟨s, hs, h0, h1, h2⟩

theorem Response.dec_inv {j : Json} {x : Response} (h : dec j = some x) :
    ∃ s, structSrc fields j = some s ∧ s.req 0 "id" RequestId.dec = some x.id ∧
      s.opt 1 "result" decValue = some x.result ∧ s.opt 2 "error" ResponseError.dec = some x.error := by
  simp only [dec, Option.bind_eq_bind, Option.bind_eq_some_iff] at h
  obtain ⟨s, hs, a0, h0, a1, h1, a2, h2, e⟩ := h
  cases e
  exact ⟨s, hs, h0, h1, h2⟩

theorem opt_some_dec {s : Src} {i : Nat} {k : String} {dec : Json → Option α} {x : α}
    (h : s.opt i k dec = some (some x)) : ∃ j, s.get i k = some j ∧ dec j = some x := by
  simp only [Src.opt] at h
  split at h
  · rename_i t ht
    exact ⟨t, ht, (decOpt_some h).2⟩
  · split at h <;> simp at h

theorem response_plain {j : Json} {r : Response} (h : Response.dec j = some r) :
    Spec.PlainMessage (.response r) := by
  obtain ⟨s, hs, h0, h1, h2⟩ := Response.dec_inv h
  refine ⟨opt_value_plain h1, ?_⟩
  intro e he
  rw [he] at h2
  obtain ⟨t, _, ht⟩ := opt_some_dec h2
  obtain ⟨s', _, _, _, h3⟩ := ResponseError.dec_inv ht
  exact opt_value_plain h3

/-- The three ways to decode a message. -/
theorem dec_cases {j : Json} {m : Message} (h : Message.dec j = some m) :
    (∃ r, m = .request r ∧ Request.dec j = some r) ∨ (∃ r, m = .response r ∧ Response.dec j = some r) ∨
      (∃ n, m = .notification n ∧ Notification.dec j = some n) := by
  simp only [Message.dec] at h
  split at h
  · rename_i r hr; cases h; exact .inl ⟨r, rfl, hr⟩
  · split at h
    · rename_i r hr; cases h; exact .inr (.inl ⟨r, rfl, hr⟩)
    · split at h
      · rename_i n hn; cases h; exact .inr (.inr ⟨n, rfl, hn⟩)
      · cases h

theorem request_dec {j : Json} {r : Request} (h : Request.dec j = some r) :
    ∃ ms i m p id, j = .obj ms ∧ Once "id" ms i ∧ RequestId.dec i = some id ∧ Once "params" ms p ∧
      ReqMeaning id m (Value.ofJson p) r := by
  cases j with
  | obj ms =>
    obtain ⟨i, m, p, id, h1, h2, _, h4, h5⟩ := (Request.dec_obj ms r).1 h
    exact ⟨ms, i, m, p, id, rfl, h1, h2, h4, (ofMethod_iff ..).1 h5⟩
  | _ => simp [Request.dec, Request.decMode] at h

theorem notification_dec {j : Json} {n : Notification} (h : Notification.dec j = some n) :
    ∃ ms m p, j = .obj ms ∧ (Once "params" ms p ∨ p = .null) ∧ NotMeaning m (Value.ofJson p) n := by
  cases j with
  | obj ms =>
    obtain ⟨m, _, h⟩ := (Notification.dec_obj ms n).1 h
    rcases h with ⟨p, h1, h2⟩ | ⟨_, _, h2⟩
    · exact ⟨ms, m, p, rfl, .inl h1, (notMethod_iff ..).1 h2⟩
    · exact ⟨ms, m, .null, rfl, .inr rfl, (notMethod_iff ..).1 h2⟩
  | _ => simp [Notification.dec, Notification.decMode] at h

theorem received_plain {j : Json} {m : Message} (h : Message.dec j = some m) : Spec.PlainMessage m := by
  rcases dec_cases h with ⟨r, rfl, h'⟩ | ⟨r, rfl, h'⟩ | ⟨n, rfl, h'⟩
  · obtain ⟨_, _, _, _, _, _, _, _, _, h⟩ := request_dec h'
    exact reqMeaning_plain h
  · exact response_plain h'
  · obtain ⟨_, _, _, _, _, h⟩ := notification_dec h'
    exact notMeaning_plain h

theorem received_wireOk {j : Json} {m : Message} (h : Message.dec j = some m)
    (hb : ∀ r, m = .request r → ¬ Spec.Bare r) : Spec.WireOk m := by
  rcases dec_cases h with ⟨r, rfl, h'⟩ | ⟨r, rfl, h'⟩ | ⟨n, rfl, h'⟩
  · obtain ⟨_, _, _, _, _, _, _, _, _, h⟩ := request_dec h'
    have hb := hb r rfl
    cases h with
    | custom hm =>
      exact ⟨hm, fun e => hb (by rw [e]; simp [Spec.Bare])⟩
    | shutdown => exact absurd (by simp [Spec.Bare]) hb
    | buildTargets => exact absurd (by simp [Spec.Bare]) hb
    | reload => exact absurd (by simp [Spec.Bare]) hb
    | _ => trivial
  · trivial
  · obtain ⟨_, _, _, _, _, h⟩ := notification_dec h'
    cases h with
    | custom hm => exact hm
    | _ => trivial

end

/-! ### What has been decoded, encoded again, fits -/

theorem keeps_id [Ext] (d : Nat) : Keeps d RequestId.dec RequestId.enc := by
  intro _ x _ _
  cases x with
  | i32 x => exact fits_encI32 d x
  | str s => exact fits_str d s

theorem ResponseError.keeps [Ext] {d : Nat} (hd : 1 ≤ d) : Keeps d dec enc := by
  intro j x h hj
  obtain ⟨d, rfl⟩ : ∃ e, d = e + 1 := ⟨d - 1, by omega⟩
  obtain ⟨s, hs, h0, h1, h2⟩ := dec_inv h
  exact fits_obj.2 (fitsAll_append (fitsAll_append (fitsAll_fld (req_fits (keeps_i32 _) hs hj h0))
    (fitsAll_fld (req_fits (keeps_str _) hs hj h1))) (fitsAll_skipNone (opt_fits (keeps_value _) hs hj h2)))

theorem fitsAll_cons {d : Nat} {k : String} {j : Json} {ms : Members} (h : Fits d j) (hm : FitsAll d ms) :
    FitsAll d ((k, j) :: ms) := fitsAll_append (fitsAll_fld (k := k) h) hm

theorem fitsAll_nil {d : Nat} : FitsAll d [] := fun m hm => by simp at hm

theorem once_mem {k : String} {ms : Members} {v : Json} (h : Once k ms v) : (k, v) ∈ ms := by
  have : (k, v) ∈ named k ms := by rw [show named k ms = [(k, v)] from h]; simp
  exact (List.mem_filter.1 this).1

section
variable [Ext]

theorem request_fits {d : Nat} (hd : 10 ≤ d) {id : RequestId} {m : String} {p : Value} {r : Request}
    (hp : Fits d p.json) (h : ReqMeaning id m p r) : FitsAll d r.members := by
  have hid : Fits d id.enc := by cases id <;> first | exact fits_encI32 d _ | exact fits_str d _
  have three : ∀ (s : String) (j : Json), Fits d j →
      FitsAll d [("id", id.enc), ("method", .str s), ("params", j)] := fun s j h =>
    fitsAll_cons hid (fitsAll_cons (fits_str d _) (fitsAll_cons h fitsAll_nil))
  have two : ∀ (s : String), FitsAll d [("id", id.enc), ("method", .str s)] := fun s =>
    fitsAll_cons hid (fitsAll_cons (fits_str d _) fitsAll_nil)
  cases h with
  | custom hm =>
    simp only [Request.members]
    refine fitsAll_append (two _) ?_
    split
    · exact fitsAll_cons hp fitsAll_nil
    · exact fitsAll_nil
  | shutdown => exact two _
  | buildTargets => exact two _
  | reload => exact two _
  | «initialize» h => exact three _ _ (InitializeBuild.keeps (by omega) _ _ h hp)
  | dependencyModules h => exact three _ _ (BuildTargetDependencyModules.keeps (by omega) _ _ h hp)
  | debug h => exact three _ _ (DebugSessionStart.keeps (by omega) _ _ h hp)
  | sources h => exact three _ _ (BuildTargetSources.keeps (by omega) _ _ h hp)
  | inverseSources h => exact three _ _ (TextDocumentInverseSources.keeps (by omega) _ _ h hp)
  | dependencySources h => exact three _ _ (BuildTargetDependencySources.keeps (by omega) _ _ h hp)
  | resources h => exact three _ _ (BuildTargetResources.keeps (by omega) _ _ h hp)
  | run h => exact three _ _ (BuildTargetRun.keeps (by omega) _ _ h hp)
  | compile h => exact three _ _ (BuildTargetCompile.keeps (by omega) _ _ h hp)
  | test h => exact three _ _ (BuildTargetTest.keeps (by omega) _ _ h hp)
  | cleanCache h => exact three _ _ (BuildTargetCleanCache.keeps (by omega) _ _ h hp)

theorem notification_fits {d : Nat} (hd : 10 ≤ d) {m : String} {p : Value} {n : Notification}
    (hp : Fits d p.json) (h : NotMeaning m p n) : FitsAll d n.members := by
  have two : ∀ (s : String) (j : Json), Fits d j →
      FitsAll d [("method", .str s), ("params", j)] := fun s j h =>
    fitsAll_cons (fits_str d _) (fitsAll_cons h fitsAll_nil)
  cases h with
  | custom hm => exact two _ _ hp
  | exit => exact fitsAll_cons (fits_str d _) fitsAll_nil
  | initialized => exact fitsAll_cons (fits_str d _) fitsAll_nil
  | showMessage h => exact two _ _ (ShowMessage.keeps (by omega) _ _ h hp)
  | logMessage h => exact two _ _ (LogMessage.keeps (by omega) _ _ h hp)
  | publishDiagnostics h => exact two _ _ (PublishDiagnostics.keeps (by omega) _ _ h hp)
  | taskStart h => exact two _ _ (TaskStart.keeps (by omega) _ _ h hp)
  | taskFinish h => exact two _ _ (TaskFinish.keeps (by omega) _ _ h hp)
  | taskProgress h => exact two _ _ (TaskProgress.keeps (by omega) _ _ h hp)
  | didChange h => exact two _ _ (BuildTargetDidChange.keeps (by omega) _ _ h hp)

theorem response_fits {d : Nat} (hd : 1 ≤ d) {j : Json} {r : Response} (h : Response.dec j = some r)
    (hj : Fits (d + 1) j) : FitsAll d r.members := by
  obtain ⟨s, hs, h0, h1, h2⟩ := Response.dec_inv h
  exact fitsAll_append (fitsAll_append (fitsAll_fld (req_fits (keeps_id _) hs hj h0))
    (fitsAll_skipNone (opt_fits (keeps_value _) hs hj h1)))
    (fitsAll_skipNone (opt_fits (ResponseError.keeps hd) hs hj h2))

theorem received_fits {d : Nat} (hd : 11 ≤ d) {j : Json} {m : Message}
    (h : Message.dec j = some m) (hj : Fits d j) : Fits d m.enc := by
  obtain ⟨d, rfl⟩ : ∃ e, d = e + 1 := ⟨d - 1, by omega⟩
  refine fits_obj.2 (fitsAll_cons (fits_str _ _) ?_)
  rcases dec_cases h with ⟨r, rfl, h'⟩ | ⟨r, rfl, h'⟩ | ⟨n, rfl, h'⟩
  · obtain ⟨ms, i, m, p, id, rfl, _, _, hp, h⟩ := request_dec h'
    rw [fits_obj] at hj
    exact request_fits (p := Value.ofJson p) (by omega) (fits_canon (hj _ (once_mem hp))) h
  · exact response_fits (by omega) h' hj
  · obtain ⟨ms, m, p, rfl, hp, h⟩ := notification_dec h'
    rw [fits_obj] at hj
    refine notification_fits (by omega) ?_ h
    rcases hp with hp | rfl
    · exact fits_canon (hj _ (once_mem hp))
    · exact fits_null _

theorem scalar_fits [FloatText] {v : List Char} {j : Json} (h : Gram.Scalar v j) (d : Nat) : Fits d j := by
  cases h with
  | num h =>
    cases h with
    | nat _ h => exact fits_int d (by omega) (by omega)
    | neg _ h1 h2 => exact fits_int d (by omega) (by omega)
    | float => simp [Fits, Spec.nest, Spec.IntsFit]
  | str => exact fits_str d _
  | null => exact fits_null d
  | true => exact fits_bool d _
  | false => exact fits_bool d _

theorem val_fits [FloatText] : ∀ {d : Nat} {v : List Char} {j : Json}, Gram.Val d v j → Fits d j
  | 0, _, _, h => scalar_fits h 0
  | d + 1, _, _, h => by
    rcases h with h | h
    · exact scalar_fits h _
    · cases h with
      | arrEmpty _ => exact fits_arr.2 (by simp)
      | arr h =>
        refine fits_arr.2 fun x hx => ?_
        obtain ⟨v, hv⟩ := Text.elems_mem h x hx
        exact val_fits hv
      | objEmpty _ => exact fits_obj.2 fitsAll_nil
      | obj h =>
        refine fits_obj.2 fun x hx => ?_
        obtain ⟨v, hv⟩ := Text.mems_mem h x hx
        exact val_fits hv

theorem parse_fits [FloatText] {cs : List Char} {j : Json} (h : Text.parse cs = some j) : Fits 127 j := by
  rw [Text.parse_iff] at h
  obtain ⟨_, _, _, _, h, _⟩ := h
  exact val_fits h

end

/-! ### C83 -/

section
variable [LawfulExt]

/-- C83 on JSON trees: whatever tree a message was decoded from (members in any order, positional
arrays, unknown members, explicit nulls, …), encoding it and decoding that gives exactly the same message. -/
theorem C83_tree (j : Json) (m : Message) (h : Message.dec j = some m)
    (hb : ∀ r, m = .request r → ¬ Spec.Bare r) : Message.dec m.enc = some m :=
  C12_tree_plain m (received_wireOk h hb) (received_plain h)

variable [FloatText]
open Frame

/-- C83: a message read from any input, written again, is read by the next reader as exactly the same
message, and it consumes exactly those bytes. -/
theorem C83_relay (s s' : Flat) (m : Message) (h : readMsg s = .item m s')
    (hb : ∀ r, m = .request r → ¬ Spec.Bare r) (hf : Spec.FloatsOk m.enc)
    (hs : (write m).length ≤ 2 ^ 63 - 1) (rest : Bytes) (br : Bool) :
    readMsg (⟨write m ++ rest, br⟩ : Flat) = .item m ⟨rest, br⟩ := by
  simp only [readMsg] at h
  split at h
  · rename_i cs s'' ht
    split at h
    · cases h
    · rename_i m' hm
      cases h
      obtain ⟨j, hj, hm⟩ := Option.bind_eq_some_iff.1 hm
      have hfit := received_fits (d := 127) (by omega) hm (parse_fits hj)
      exact C12_wire_plain m (received_wireOk hm hb) (received_plain hm)
        ⟨hfit.1, numbers_iff.2 ⟨hfit.2, hf⟩, hs⟩ rest br
  all_goals cases h

/-- C83: a whole stream, however it was written, split or ended, sent on by the library is read
by the next reader as the same messages in the same order. -/
theorem C83_stream (s : Flat) (ms : List Message) (stop : Stop)
    (h : readAll s = (ms, stop)) (hb : ∀ r, .request r ∈ ms → ¬ Spec.Bare r)
    (hf : ∀ m ∈ ms, Spec.FloatsOk m.enc ∧ (write m).length ≤ 2 ^ 63 - 1) :
    readAll (⟨ms.flatMap write, false⟩ : Flat) = (ms, .eof) := by
  induction ms generalizing s stop with
  | nil => rw [List.flatMap_nil, readAll_eq, readMsg_nil.1]
  | cons m ms ih =>
    rw [readAll_eq] at h
    split at h
    · rename_i m' s' hm
      simp only [Prod.mk.injEq, List.cons.injEq] at h
      obtain ⟨⟨rfl, h1⟩, h2⟩ := h
      have hh := C83_relay s s' m' hm (fun r e => hb r (by simp [e])) (hf m' (by simp)).1 (hf m' (by simp)).2
        (ms.flatMap write) false
      have ih := ih s' stop (by rw [← h1, ← h2]) (fun r hr => hb r (by simp [hr])) (fun m hm => hf m (by simp [hm]))
      rw [List.flatMap_cons, readAll_eq, hh]
      simp only [ih]
    all_goals simp at h

/-- C83: what happens to the others: a request without params, sent on, is received as an empty response
with the same id. -/
theorem C83_bare (r : Request) (hb : Spec.Bare r) (hs : (write (.request r)).length ≤ 2 ^ 63 - 1)
    (rest : Bytes) (br : Bool) :
    readMsg (⟨write (.request r) ++ rest, br⟩ : Flat) = .item (.response ⟨r.id, none, none⟩) ⟨rest, br⟩ := by
  obtain ⟨hc, hd⟩ := bare_carried hb hs
  rw [readMsg, readText_write (.request r) hc.size]
  simp only [msgText, Text.parse_print hc.nest hc.numbers, Option.bind_some, hd]

end

section
attribute [local instance] Ext.sample FloatText.sample

/-- A request in a form that the library does not write itself: other order, explicit null, unknown members,
positional target. -/
def oddTree : Json := .obj [("params", .obj [("arguments", .null), ("x", .bool true), ("target",
  .arr [.str "a:b"])]), ("id", .int 7), ("junk", .bool true),
  ("method", .str "buildTarget/compile")]

/-- The message that `oddTree` is. -/
def oddMsg : Message := .request (.buildTargetCompile (.i32 7) ⟨⟨⟨"a:b", by decide⟩⟩, none, none⟩)

theorem oddTree_dec : Message.dec oddTree = some oddMsg := by rfl

/-- The library writes it in another form. -/
example : oddMsg.enc ≠ oddTree := by decide

/-- Beside C83_tree: what the library sends on for `oddTree` is the same message. -/
example : Message.dec oddMsg.enc = some oddMsg :=
  C83_tree oddTree oddMsg oddTree_dec (by simp [oddMsg, Spec.Bare])

theorem oddTree_read (rest : Bytes) : Frame.readMsg (⟨Frame.frame (Text.print oddTree) ++ rest, false⟩ : Frame.Flat) =
    .item oddMsg ⟨rest, false⟩ := by
  have h : Frame.readText (⟨Frame.frame (Text.print oddTree) ++ rest, false⟩ : Frame.Flat) =
      .item (Text.print oddTree) ⟨rest, false⟩ := C01_frame _ (by
        rw [show Text.print oddTree = "{\"params\":{\"arguments\":null,\"x\":true,\"target\":[\"a:b\"]},\"id\":7,\"junk\":true,\"method\":\"buildTarget/compile\"}".toList by rfl]
        decide) rest false
  unfold Frame.readMsg
  rw [h]
  simp only [Text.parse_print (j := oddTree) (by decide)
    (by simp [oddTree, Spec.Numbers, Spec.NumbersMembers, Spec.NumbersList]), Option.bind_some, oddTree_dec]

theorem oddMsg_enc : oddMsg.enc = .obj [("jsonrpc", .str "2.0"), ("id", .int 7), ("method", .str "buildTarget/compile"),
    ("params", .obj [("target", .obj [("uri", .str "a:b")])])] := by rfl

theorem oddMsg_ok : Spec.FloatsOk oddMsg.enc ∧ (Frame.write oddMsg).length ≤ 2 ^ 63 - 1 := by
  refine ⟨by simp [oddMsg_enc, Spec.FloatsOk, Spec.FloatsOkMembers], ?_⟩
  rw [show Frame.write oddMsg = Frame.frame "{\"jsonrpc\":\"2.0\",\"id\":7,\"method\":\"buildTarget/compile\",\"params\":{\"target\":{\"uri\":\"a:b\"}}}".toList
    by rfl]
  decide

/-- Beside C83_relay: `oddTree` arrives, and is sent on. -/
example : Frame.readMsg (⟨Frame.write oddMsg ++ [1, 2], true⟩ : Frame.Flat) = .item oddMsg ⟨[1, 2], true⟩ :=
  C83_relay _ _ oddMsg (oddTree_read []) (by simp [oddMsg, Spec.Bare]) oddMsg_ok.1 oddMsg_ok.2 [1, 2] true

/-- Beside C83_stream: `oddTree` arrives twice, then the input ends. -/
example : Frame.readAll (⟨[oddMsg, oddMsg].flatMap Frame.write, false⟩ : Frame.Flat) = ([oddMsg, oddMsg], .eof) :=
  C83_stream ⟨Frame.frame (Text.print oddTree) ++ (Frame.frame (Text.print oddTree) ++ []), false⟩
    [oddMsg, oddMsg] .eof
    (by rw [readAll_eq, oddTree_read]; simp only; rw [readAll_eq, oddTree_read]; simp only
        rw [readAll_eq, readMsg_nil.1])
    (by simp [oddMsg, Spec.Bare]) (by simpa using oddMsg_ok)

/-- Beside C83_bare: a shutdown request. -/
example : Frame.readMsg (⟨Frame.write (.request (.shutdown (.i32 3))) ++ [], false⟩ : Frame.Flat) =
    .item (.response ⟨.i32 3, none, none⟩) ⟨[], false⟩ :=
  C83_bare (.shutdown (.i32 3)) ⟨_, .inl rfl⟩ (by decide) [] false

end

end Bsp
