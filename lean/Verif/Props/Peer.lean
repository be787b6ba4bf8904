/-
The process of C70-C76 and a client that writes its messages with the same library: C77.
-/
import Verif.Props.Session

namespace Bsp
open Conn Session Transport

section
variable [Ext] [Dbg] {process : InitializeBuild → Option Value} [FloatText] {k : Kind}

/-- C74: an exit notification without shutdown ends the process just as well: with success, and with everything
answered that came before. -/
theorem C74_exit {p : Proc} {as : List Session.Act} (h : Session.Steps k process {} as p)
    (hw : Session.Act.writeFails ∉ as) (hq : Quiet k process p)
    {bs rest : Bytes} {early : List Request} {id : RequestId} {ip : InitializeBuild} {v : Value} {pre : List Message}
    (hb : p.io.arrived = bs ++ rest) (hc : Spec.Carries bs (Spec.session early id ip pre ++ [.notification .exit]))
    (he : ∀ r ∈ early, Spec.Early r) (hv : process ip = some v) (hn : Spec.NoShutdown pre)
    (hx : Message.notification .exit ∉ pre) :
    p.exit = some true ∧
    ∃ ms, Spec.Served early id v (Spec.requests pre) ms ∧ p.io.out = ms.flatMap Frame.write := by
  have hr := proc_reachable h
  have hfs := feed_session (id := id) he hv hn
  have hfx : feed process .start (Spec.session early id ip pre ++ [.notification .exit]) =
      (.idle, early.map refusal ++ [.response ⟨id, some v, none⟩] ++ (Spec.requests pre).map reply) := by
    rw [feed_append, hfs]; simp [feed, round, onRecv, toSend]
  have hsx : Message.notification .exit ∉ Spec.session early id ip pre := by simp [Spec.session, hx]
  have hd := delivers_all h hw hq hb hc (fun _ ms hm => feed_stays hm (by rw [hfx])) (by
    intro ms m hm
    have h1 : ms <+: Spec.session early id ip pre := by
      rcases List.prefix_concat_iff.1 hm with h1 | h1
      · rw [(List.append_inj' h1 rfl).1]; exact List.prefix_rfl
      · exact (List.prefix_append ms [m]).trans h1
    exact ⟨fun h2 => hsx (h1.subset h2), feed_alive h1 (by rw [hfs]; simp)⟩)
  have hdx : Message.notification .exit ∈ p.io.delivered := hd.subset (by simp)
  obtain ⟨hdone, ⟨ms, h1, h2⟩, _⟩ := C52_exit hr hdx
  have hall : p.io.delivered = Spec.session early id ip pre ++ [.notification .exit] := by
    rw [h1] at hd ⊢
    rcases List.prefix_concat_iff.1 hd with h3 | h3
    · exact h3.symm
    · exact absurd (h3.subset (by simp)) h2
  have hat := (mainInv h).at' (no_fail h hw)
  rw [hall, hfx] at hat
  have hfin : p.app = .ended (.ok ()) ∧
      p.io.accepted = early.map refusal ++ [.response ⟨id, some v, none⟩] ++ (Spec.requests pre).map reply := by
    rcases C71_nothing_pending h hw hq with ⟨b, hex⟩ | ⟨h3, _⟩
    · obtain ⟨_, r, h4, _⟩ := (mainInv h).exits b hex
      cases hat with
      | rest h3 _ => rw [h4] at h3; cases h3
      | sending h3 _ _ => rw [h4] at h3; cases h3
      | closed _ h3 _ _ h5 => exact ⟨h3, h5⟩
      | late h3 _ _ _ => cases h3
    · exfalso
      cases hex : p.exit with
      | none =>
        rcases hq _ _ (.closed hex h3 (by rw [hdone]; rfl)) with h | h <;> cases h
      | some b =>
        obtain ⟨_, r, h4, _⟩ := (mainInv h).exits b hex
        rw [h4] at h3; cases h3
  obtain ⟨h3, h4⟩ := success h hw hq hfin.1 hdone
  refine ⟨h3, _, ⟨_, _, rfl, refusals _, replies _⟩, ?_⟩
  rw [h4, hfin.2]

end

section
variable [LawfulExt] [Dbg] {process : InitializeBuild → Option Value} [FloatText] {k : Kind}

omit [Dbg] in
/-- A message that the library writes, as the server gets it. -/
theorem carries_lib {bs : Bytes} {ms : List Message} {m m' : Message} (h : Spec.Carries bs ms) (hc : Spec.Carried m)
    (hd : Message.dec m.enc = some m') : Spec.Carries (bs ++ Frame.write m) (ms ++ [m']) := by
  have h5 : Frame.readMsg (⟨Frame.write m ++ [], false⟩ : Frame.Flat) = .item m' ⟨[], false⟩ := by
    rw [Frame.readMsg, readText_write m hc.size]
    simp only [Frame.msgText, Text.parse_print hc.nest hc.numbers, Option.bind_some, hd]
  obtain ⟨_, f, cs, j, hf, hl, hj, hd', h6⟩ := readMsg_item_iff.1 h5
  simp only [List.append_nil] at h6
  rw [h6]
  exact .snoc h hf hl hj hd'

omit [Dbg] [FloatText] in
theorem requests_append (a b : List Message) : Spec.requests (a ++ b) = Spec.requests a ++ Spec.requests b := by
  induction a with
  | nil => rfl
  | cons m a ih => cases m <;> simp [Spec.requests, ih]

omit [Dbg] in
theorem bare_carried {r : Request} (hb : Spec.Bare r) (hs : (Frame.write (.request r)).length ≤ 2 ^ 63 - 1) :
    Spec.Carried (.request r) ∧ Message.dec (Message.enc (.request r)) = some (.response ⟨r.id, none, none⟩) := by
  obtain ⟨id, hb⟩ := hb
  have hid : Spec.nest id.enc = 0 ∧ Spec.Numbers id.enc := by
    cases id with
    | i32 n => exact ⟨rfl, by
        have := n.toInt_lt; have := n.le_toInt
        simp only [RequestId.enc, encI32, Spec.Numbers]; omega⟩
    | str s => exact ⟨rfl, trivial⟩
  refine ⟨⟨?_, ?_, hs⟩, ?_⟩
  · rcases hb with rfl | rfl | rfl | ⟨m, rfl⟩ <;>
      simp [Message.enc, Message.members, Request.members, Spec.nest, Spec.nestMembers, hid.1,
        show Value.null.isNull = true from rfl]
  · rcases hb with rfl | rfl | rfl | ⟨m, rfl⟩ <;>
      simp [Message.enc, Message.members, Request.members, Spec.Numbers, Spec.NumbersMembers, hid.2,
        show Value.null.isNull = true from rfl]
  · rcases hb with rfl | rfl | rfl | ⟨m, rfl⟩
    · exact C13_violated id "" _ (by simp)
    · exact C13_violated id "" _ (by simp)
    · exact C13_violated id "" _ (by simp)
    · exact C13_violated id m _ (by simp)

omit [Dbg] in
theorem exit_carried : Spec.Carried (.notification .exit) :=
  ⟨by simp [Message.enc, Message.members, Notification.members, Spec.nest, Spec.nestMembers],
    by simp [Message.enc, Message.members, Notification.members, Spec.Numbers, Spec.NumbersMembers], by
    have e : Message.enc (.notification .exit) = .obj [("jsonrpc", .str "2.0"), ("method", .str "build/exit")] := rfl
    have e' : Text.print (.obj [("jsonrpc", .str "2.0"), ("method", .str "build/exit")]) =
      "{\"jsonrpc\":\"2.0\",\"method\":\"build/exit\"}".toList := by rfl
    simp only [Frame.write, Frame.frame, Frame.msgText, e, e']
    decide⟩

omit [Dbg] [FloatText] in
theorem exit_dec : Message.dec (Message.enc (.notification .exit)) = some (.notification .exit) :=
  notification_roundtrip .exit trivial

/-- C77 (violated by the code): after the handshake a client sends a request without params or with null, such as
shutdown, with `Message::write` of this library.  The process never answers it: it goes on running, and when it can go
no further it has answered what came before, and nothing else. -/
theorem C77_violated {p : Proc} {as : List Session.Act} (h : Session.Steps k process {} as p)
    (hw : Session.Act.writeFails ∉ as)
    {bs : Bytes} {early : List Request} {id : RequestId} {ip : InitializeBuild} {v : Value} {pre : List Message}
    {r : Request} (hb : Spec.Bare r) (hs : (Frame.write (.request r)).length ≤ 2 ^ 63 - 1)
    (hi : p.io.inEnd = none) (ha : p.io.arrived = bs ++ Frame.write (.request r))
    (hc : Spec.Carries bs (Spec.session early id ip pre))
    (he : ∀ r ∈ early, Spec.Early r) (hv : process ip = some v) (hn : Spec.NoShutdown pre)
    (hx : Message.notification .exit ∉ pre) :
    p.exit = none ∧ (Quiet k process p →
      ∃ ms, Spec.Served early id v (Spec.requests pre) ms ∧ p.io.out = ms.flatMap Frame.write) := by
  obtain ⟨h1, h2⟩ := bare_carried hb hs
  have h3 : Spec.Carries p.io.arrived (Spec.session early id ip (pre ++ [.response ⟨r.id, none, none⟩])) := by
    rw [ha]
    simpa [Spec.session] using carries_lib hc h1 h2
  have := C74_stays h hw hi h3 he hv (by simpa [Spec.NoShutdown] using hn) (by simpa using hx)
  simpa [requests_append, Spec.requests] using this

/-- C77 (violated by the code): if such a client goes on with exit, the process exits with success, having answered
everything but that request. -/
theorem C77_violated_exit {p : Proc} {as : List Session.Act} (h : Session.Steps k process {} as p)
    (hw : Session.Act.writeFails ∉ as) (hq : Quiet k process p)
    {bs rest : Bytes} {early : List Request} {id : RequestId} {ip : InitializeBuild} {v : Value} {pre : List Message}
    {r : Request} (hb : Spec.Bare r) (hs : (Frame.write (.request r)).length ≤ 2 ^ 63 - 1)
    (ha : p.io.arrived = bs ++ Frame.write (.request r) ++ Frame.write (.notification .exit) ++ rest)
    (hc : Spec.Carries bs (Spec.session early id ip pre))
    (he : ∀ r ∈ early, Spec.Early r) (hv : process ip = some v) (hn : Spec.NoShutdown pre)
    (hx : Message.notification .exit ∉ pre) :
    p.exit = some true ∧
    ∃ ms, Spec.Served early id v (Spec.requests pre) ms ∧ p.io.out = ms.flatMap Frame.write := by
  obtain ⟨h1, h2⟩ := bare_carried hb hs
  have h3 := carries_lib (carries_lib hc h1 h2) exit_carried exit_dec
  have := C74_exit (early := early) (id := id) (ip := ip) (pre := pre ++ [.response ⟨r.id, none, none⟩]) h hw hq ha
    (by simpa [Spec.session] using h3) he hv (by simpa [Spec.NoShutdown] using hn) (by simpa using hx)
  simpa [requests_append, Spec.requests] using this

omit [Dbg] [FloatText] in
theorem replies_snoc {rs : List Request} {r : Request} {ms : List Message} (h : Spec.Replies (rs ++ [r]) ms) :
    ∃ ms1 m, ms = ms1 ++ [m] ∧ Spec.Replies rs ms1 ∧ Spec.IsReply r m := by
  induction rs generalizing ms with
  | nil =>
    cases h with
    | cons h1 h2 => cases h2; exact ⟨[], _, rfl, .nil, h1⟩
  | cons x rs ih =>
    cases h with
    | cons h1 h2 =>
      obtain ⟨ms1, m, rfl, h3, h4⟩ := ih h2
      exact ⟨_ :: ms1, m, rfl, .cons h1 h3, h4⟩

/-- C77, the part that holds: a request that the library writes with params (and, if it is custom, whose method is not
a built-in name) is answered exactly once. Missing: the requests of `C77_violated`, and custom requests with a
built-in name, which are read as something else. -/
theorem C77_partial {p : Proc} {as : List Session.Act} (h : Session.Steps k process {} as p)
    (hw : Session.Act.writeFails ∉ as)
    {bs : Bytes} {early : List Request} {id : RequestId} {ip : InitializeBuild} {v : Value} {pre : List Message}
    {r : Request} (hb : Spec.ReqOk r) (hs : Spec.Carried (.request r))
    (hi : p.io.inEnd = none) (ha : p.io.arrived = bs ++ Frame.write (.request r))
    (hc : Spec.Carries bs (Spec.session early id ip pre))
    (he : ∀ r ∈ early, Spec.Early r) (hv : process ip = some v) (hn : Spec.NoShutdown pre)
    (hx : Message.notification .exit ∉ pre) :
    p.exit = none ∧ (Quiet k process p →
      ∃ ms m, Spec.Served early id v (Spec.requests pre) ms ∧ Spec.IsReply r m ∧
        p.io.out = (ms ++ [m]).flatMap Frame.write) := by
  have h3 : Spec.Carries p.io.arrived (Spec.session early id ip (pre ++ [.request r.norm])) := by
    rw [ha]
    simpa [Spec.session] using carries_lib hc hs (request_roundtrip r hb)
  obtain ⟨h4, h5⟩ := C74_stays h hw hi h3 he hv
    (by intro i; simp only [List.mem_append, not_or]; exact ⟨hn i, by cases r <;> simp_all [Request.norm, Spec.ReqOk]⟩)
    (by simpa using hx)
  refine ⟨h4, fun hq => ?_⟩
  obtain ⟨ms, ⟨refs, rs, rfl, h6, h7⟩, h8⟩ := h5 hq
  rw [requests_append] at h7
  obtain ⟨rs1, m, rfl, h9, h10⟩ := replies_snoc h7
  refine ⟨_, m, ⟨refs, rs1, rfl, h6, h9⟩, ?_, by rw [h8]; simp⟩
  cases r <;> exact h10

end

/-! ### Concrete cases -/

section
variable [Ext] [Dbg] [FloatText]

/-- Bytes arrive, and the process comes to rest. -/
theorem settle (k : Kind) (process : InitializeBuild → Option Value) (bs : Bytes) :
    ∃ as p, Session.Steps k process {} as p ∧ Session.Act.writeFails ∉ as ∧ Session.Act.timeout ∉ as ∧
      Quiet k process p ∧ p.io.arrived = bs ∧ p.io.inEnd = none := by
  have h0 : Session.Steps k process {} [.peer] { io := { arrived := bs, unread := bs } } :=
    steps_cons (.io rfl (.arrive _ bs rfl) rfl) (.nil _)
  obtain ⟨as, q, h1, h2, h3⟩ := C72_settles k process { io := { arrived := bs, unread := bs } }
  obtain ⟨h4, h5⟩ := steps_arrived h1 (fun h => (h3 _ h).1 rfl)
  refine ⟨_, q, steps_append h0 h1, ?_, ?_, h2, h4, h5⟩ <;>
  · intro h
    rcases List.mem_append.1 h with h | h
    · cases h with | tail _ h => cases h
    · first | exact (h3 _ h).2.2 rfl | exact (h3 _ h).2.1 rfl

end

section
attribute [local instance] Ext.sample FloatText.sample Dbg.sample

/-- What the sample conversation calls for. -/
def Spec.sampleServed (ms : List Message) : Prop :=
  Spec.Served [.workspaceReload (.str "a")] (.i32 1) (.ofJson (.str "c")) [.workspaceBuildTargets (.i32 2)] ms

/-- Beside C74_exit: the sample conversation, exit, and bytes that are not read. -/
example (k : Kind) : ∃ as p, Session.Steps k sampleHandler {} as p ∧ p.exit = some true ∧
    ∃ ms, Spec.sampleServed ms ∧ p.io.out = ms.flatMap Frame.write := by
  obtain ⟨as, p, h1, h2, _, h3, h4, _⟩ := settle k sampleHandler
    (framed sampleTalk ++ Frame.write (.notification .exit) ++ [1, 2, 3])
  exact ⟨as, p, h1, C74_exit (id := .i32 1) (ip := sampleInit) (v := .ofJson (.str "c"))
    (early := [.workspaceReload (.str "a")]) (pre := [.request (.workspaceBuildTargets (.i32 2)),
      .notification .initialized]) h1 h2 h3 h4 (carries_lib sampleTalk_carries.1 exit_carried exit_dec)
    (by simp [Spec.Early]) rfl (by simp [Spec.NoShutdown]) (by simp)⟩

/-- Beside C77_violated: the sample conversation, and a shutdown request as the library writes it. -/
example (k : Kind) : ∃ as p, Session.Steps k sampleHandler {} as p ∧ Quiet k sampleHandler p ∧ p.exit = none ∧
    ∃ ms, Spec.sampleServed ms ∧ p.io.out = ms.flatMap Frame.write := by
  obtain ⟨as, p, h1, h2, _, h3, h4, h5⟩ := settle k sampleHandler
    (framed sampleTalk ++ Frame.write (.request (.shutdown (.i32 3))))
  have := C77_violated (id := .i32 1) (ip := sampleInit) (v := .ofJson (.str "c"))
    (early := [.workspaceReload (.str "a")]) (pre := [.request (.workspaceBuildTargets (.i32 2)),
      .notification .initialized]) h1 h2 (r := .shutdown (.i32 3)) ⟨_, .inl rfl⟩ (by decide) h5 h4
    sampleTalk_carries.1 (by simp [Spec.Early]) rfl (by simp [Spec.NoShutdown]) (by simp)
  exact ⟨as, p, h1, h3, this.1, this.2 h3⟩

/-- Beside C77_violated_exit: the same, and the exit notification. -/
example (k : Kind) : ∃ as p, Session.Steps k sampleHandler {} as p ∧ p.exit = some true ∧
    ∃ ms, Spec.sampleServed ms ∧ p.io.out = ms.flatMap Frame.write := by
  obtain ⟨as, p, h1, h2, _, h3, h4, h5⟩ := settle k sampleHandler
    (framed sampleTalk ++ Frame.write (.request (.shutdown (.i32 3))) ++ Frame.write (.notification .exit) ++ [])
  exact ⟨as, p, h1, C77_violated_exit (id := .i32 1) (ip := sampleInit) (v := .ofJson (.str "c"))
    (early := [.workspaceReload (.str "a")]) (pre := [.request (.workspaceBuildTargets (.i32 2)),
      .notification .initialized]) h1 h2 h3 (r := .shutdown (.i32 3)) ⟨_, .inl rfl⟩ (by decide) h4
    sampleTalk_carries.1 (by simp [Spec.Early]) rfl (by simp [Spec.NoShutdown]) (by simp)⟩

/-- Beside C77_partial: the sample conversation, and a request with params as the library writes it. -/
example (k : Kind) : ∃ as p, Session.Steps k sampleHandler {} as p ∧ Quiet k sampleHandler p ∧ p.exit = none ∧
    ∃ ms m, Spec.sampleServed ms ∧ Spec.IsReply (.custom (.i32 4) "x/y" (.ofJson (.arr []))) m ∧
      p.io.out = (ms ++ [m]).flatMap Frame.write := by
  obtain ⟨as, p, h1, h2, _, h3, h4, h5⟩ := settle k sampleHandler
    (framed sampleTalk ++ Frame.write (.request (.custom (.i32 4) "x/y" (.ofJson (.arr [])))))
  have := C77_partial (id := .i32 1) (ip := sampleInit) (v := .ofJson (.str "c"))
    (early := [.workspaceReload (.str "a")]) (pre := [.request (.workspaceBuildTargets (.i32 2)),
      .notification .initialized]) h1 h2 (r := .custom (.i32 4) "x/y" (.ofJson (.arr [])))
    (by simp [Spec.ReqOk]; decide) ⟨by decide, by
      have e : Message.enc (.request (.custom (.i32 4) "x/y" (.ofJson (.arr [])))) = .obj [("jsonrpc", .str "2.0"),
        ("id", .int 4), ("method", .str "x/y"), ("params", .arr [])] := by rfl
      rw [e]; simp [Spec.Numbers, Spec.NumbersMembers, Spec.NumbersList], by decide⟩ h5 h4
    sampleTalk_carries.1 (by simp [Spec.Early]) rfl (by simp [Spec.NoShutdown]) (by simp)
  exact ⟨as, p, h1, h3, this.1, this.2 h3⟩

end
end Bsp
