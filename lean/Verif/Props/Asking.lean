import Verif.Asking
import Verif.Props.Pool
import Verif.Props.Heard
import Verif.Props.ReqQueue
import Verif.Props.Peer

namespace Bsp
open Conn Session Transport Queue

section
variable [LawfulExt] [FloatText]

omit [LawfulExt] [FloatText] in
theorem utf8_le (cs : List Char) : (utf8 cs).length ≤ 4 * cs.length := by
  induction cs with
  | nil => simp [utf8]
  | cons c cs ih =>
    have h := Char.utf8Size_le_four c
    simp only [utf8, List.flatMap_cons, List.length_append, List.length_cons, String.length_utf8EncodeChar] at ih ⊢
    omega

omit [LawfulExt] [FloatText] in
theorem frame_small (cs : List Char) (h : cs.length ≤ 1000) : (Frame.frame cs).length ≤ 2 ^ 63 - 1 := by
  have h1 := utf8_le cs
  have h2 : (Nat.toDigits 10 (utf8 cs).length).length ≤ 4 :=
    (Nat.length_toDigits_le_iff (by decide) (by decide)).2 (by omega)
  have h3 := utf8_le ("Content-Length: ".toList ++ Nat.toDigits 10 (utf8 cs).length ++ ['\r', '\n', '\r', '\n'])
  have h4 : "Content-Length: ".toList.length = 16 := by decide
  unfold Frame.frame
  simp only [List.length_append, List.length_cons, List.length_nil] at h3 ⊢
  omega

omit [LawfulExt] [FloatText] in
theorem printInt_small (n : Int32) : (Text.printInt n.toInt).length ≤ 11 := by
  have h1 := n.toInt_lt
  have h2 := n.le_toInt
  have h3 : (Nat.toDigits 10 n.toInt.natAbs).length ≤ 10 :=
    (Nat.length_toDigits_le_iff (by decide) (by decide)).2 (by omega)
  unfold Text.printInt
  split <;> simp <;> omega

theorem small_carried (n : Int32) (k : String) (j : Json) (hk : (Text.printStr k).length ≤ 20) (h1 : Spec.nest j ≤ 3)
    (h2 : Spec.Numbers j) (h3 : (Text.print j).length ≤ 100) (m : Message)
    (he : m.enc = .obj [("jsonrpc", .str "2.0"), ("id", .int n.toInt), (k, j)]) : Spec.Carried m := by
  have l1 := n.toInt_lt
  have l2 := n.le_toInt
  have l3 := printInt_small n
  have e1 : (Text.printStr "jsonrpc").length = 9 := by decide
  have e2 : (Text.printStr "2.0").length = 5 := by decide
  have e3 : (Text.printStr "id").length = 4 := by decide
  refine ⟨?_, ?_, ?_⟩
  · rw [he]
    simp only [Spec.nest, Spec.nestMembers]
    omega
  · rw [he]
    simp only [Spec.Numbers, Spec.NumbersMembers]
    refine ⟨trivial, by omega, h2, trivial⟩
  · refine frame_small _ ?_
    rw [Frame.msgText, he]
    simp only [Text.print, Text.printMembers, List.length_cons, List.length_append, List.length_nil, e1, e2, e3]
    omega

theorem small_id {r : Request} {n : Int32} (h : r.id = .i32 n) : Spec.Carried (reply r) := by
  have hid : (RequestId.i32 n).enc = .int n.toInt := rfl
  have other : ∀ r : Request, r.id = .i32 n → Spec.Carried (.response (.methodNotFound r.id "")) := by
    intro r h
    rw [h]
    refine small_carried n "error" (.obj [("code", .int (-32601)), ("message", .str "")]) (by decide) ?_ ?_ ?_ _ rfl
    · simp [Spec.nest, Spec.nestMembers]
    · simp [Spec.Numbers, Spec.NumbersMembers]
    · simp only [Text.print, Text.printMembers]; decide
  cases r with
  | workspaceBuildTargets id =>
    cases h
    refine small_carried n "result" (.obj [("targets", .arr [])]) (by decide) ?_ ?_ ?_ _ rfl
    · simp [Spec.nest, Spec.nestMembers, Spec.nestList]
    · simp [Spec.Numbers, Spec.NumbersMembers, Spec.NumbersList]
    · simp only [Text.print, Text.printMembers, Text.printElems]; decide
  | buildTargetSources id p =>
    cases h
    refine small_carried n "result" (.obj [("items", .arr [])]) (by decide) ?_ ?_ ?_ _ rfl
    · simp [Spec.nest, Spec.nestMembers, Spec.nestList]
    · simp [Spec.Numbers, Spec.NumbersMembers, Spec.NumbersList]
    · simp only [Text.print, Text.printMembers, Text.printElems]; decide
  | _ => exact other _ h


/-! ### What is heard of requests -/

omit [FloatText] in
theorem heard_asked {r r' : Request} (h : Spec.heard (.request r) = .request r') :
    r'.id = r.id ∧ ¬ Spec.Bare r ∧ (∀ id, r' ≠ .shutdown id) ∧ Spec.IsReply r (Spec.heard (reply r')) := by
  have nb : ¬ Spec.Bare r := by
    intro hb
    rw [heard_bare hb] at h
    cases h
  refine ⟨?_, nb, ?_, ?_⟩
  · cases r <;> simp only [Spec.heard, Message.norm, Request.norm] at h <;> first
      | (cases h; done)
      | (cases h; rfl)
      | (split at h <;> cases h; rfl)
  · cases r <;> simp only [Spec.heard, Message.norm, Request.norm] at h <;> first
      | (cases h; done)
      | (cases h; intro id hi; cases hi)
      | (split at h <;> cases h; intro id hi; cases hi)
  · cases r <;> simp only [Spec.heard, Message.norm, Request.norm] at h <;> first
      | (cases h; done)
      | (cases h; exact ⟨_, rfl, rfl, rfl, _, rfl⟩)
      | (cases h; exact ⟨_, rfl, rfl, rfl, rfl⟩)
      | (split at h <;> cases h; exact ⟨_, rfl, rfl, rfl, _, rfl⟩)

omit [FloatText] in
theorem heard_other {m : Message} {r : Request} (h : ∀ r, m ≠ .request r) : Spec.heard m ≠ .request r := by
  cases m with
  | request r => exact absurd rfl (h r)
  | response r => simp [Spec.heard, Message.norm]
  | notification n => simp [Spec.heard, Message.norm]

omit [FloatText] in
theorem requests_heard_cons (m : Message) (said : List Message) :
    (∃ r r', m = .request r ∧ Spec.heard m = .request r' ∧
      Spec.requests ((m :: said).map Spec.heard) = r' :: Spec.requests (said.map Spec.heard) ∧
      Spec.requests (m :: said) = r :: Spec.requests said) ∨
    Spec.requests ((m :: said).map Spec.heard) = Spec.requests (said.map Spec.heard) ∧
      ((∃ r, Spec.Bare r ∧ Spec.requests (m :: said) = r :: Spec.requests said) ∨
        Spec.requests (m :: said) = Spec.requests said) := by
  rw [List.map_cons]
  cases m with
  | request r =>
    cases h : Spec.heard (.request r) with
    | request r' => exact .inl ⟨r, r', rfl, rfl, rfl, rfl⟩
    | response x =>
      refine .inr ⟨rfl, .inl ⟨r, ?_, rfl⟩⟩
      cases r <;> simp only [Spec.heard, Message.norm, Request.norm, reduceCtorEq] at h
      · exact ⟨_, .inl rfl⟩
      · exact ⟨_, .inr (.inl rfl)⟩
      · exact ⟨_, .inr (.inr (.inl rfl))⟩
      · split at h
        · rename_i hv
          exact ⟨_, .inr (.inr (.inr ⟨_, by rw [(Value.isNull_iff _).1 hv]⟩))⟩
        · cases h
    | notification n =>
      exfalso
      cases r <;> simp only [Spec.heard, Message.norm, Request.norm] at h <;> first
        | (cases h; done)
        | (split at h <;> cases h)
  | response x => exact .inr ⟨rfl, .inr rfl⟩
  | notification n => exact .inr ⟨rfl, .inr rfl⟩

omit [FloatText] in
theorem mem_requests_heard {said : List Message} {r' : Request} (h : r' ∈ Spec.requests (said.map Spec.heard)) :
    ∃ r ∈ Spec.requests said, Spec.heard (.request r) = .request r' := by
  induction said with
  | nil => cases h
  | cons m said ih =>
    rcases requests_heard_cons m said with ⟨r, r1, h1, h2, h3, h4⟩ | ⟨h3, ⟨r, _, h4⟩ | h4⟩
    · rw [h3] at h
      rcases List.mem_cons.1 h with rfl | h
      · exact ⟨r, by rw [h4]; simp, h1 ▸ h2⟩
      · obtain ⟨q, h5, h6⟩ := ih h
        exact ⟨q, by rw [h4]; simp [h5], h6⟩
    · obtain ⟨q, h5, h6⟩ := ih (h3 ▸ h)
      exact ⟨q, by rw [h4]; simp [h5], h6⟩
    · obtain ⟨q, h5, h6⟩ := ih (h3 ▸ h)
      exact ⟨q, by rw [h4]; exact h5, h6⟩

omit [FloatText] in
theorem requests_heard_ids (said : List Message) :
    List.Sublist ((Spec.requests (said.map Spec.heard)).map Request.id) ((Spec.requests said).map Request.id) := by
  induction said with
  | nil => exact .slnil
  | cons m said ih =>
    rcases requests_heard_cons m said with ⟨r, r1, h1, h2, h3, h4⟩ | ⟨h3, ⟨r, _, h4⟩ | h4⟩
    · rw [h3, h4, List.map_cons, List.map_cons, (heard_asked (h1 ▸ h2)).1]
      exact ih.cons_cons _
    · rw [h3, h4]; exact ih.cons _
    · rw [h3, h4]; exact ih

omit [FloatText] in
theorem heard_not_bare {said : List Message} {r : Request} (h : r ∈ Spec.requests said) (hb : ¬ Spec.Bare r) :
    ∃ r' ∈ Spec.requests (said.map Spec.heard), r'.id = r.id := by
  induction said with
  | nil => cases h
  | cons m said ih =>
    rcases requests_heard_cons m said with ⟨r0, r1, h1, h2, h3, h4⟩ | ⟨h3, ⟨r0, h5, h4⟩ | h4⟩
    · rw [h4] at h
      rcases List.mem_cons.1 h with rfl | h
      · exact ⟨r1, by rw [h3]; simp, (heard_asked (h1 ▸ h2)).1⟩
      · obtain ⟨q, h5, h6⟩ := ih h
        exact ⟨q, by rw [h3]; simp [h5], h6⟩
    · rw [h4] at h
      rcases List.mem_cons.1 h with rfl | h
      · exact absurd h5 hb
      · rw [h3]; exact ih h
    · rw [h4] at h; rw [h3]; exact ih h


/-! ### Numbers -/

omit [LawfulExt] [FloatText] in
theorem int32_far (a : Int32) (k : Nat) (h : a.toInt + k ≤ 2 ^ 31 - 1) : (a + Int32.ofNat k).toInt = a.toInt + k := by
  have h1 := a.le_toInt
  rw [Int32.toInt_add, Int32.toInt_ofNat', Int.bmod_eq_emod, Int.bmod_eq_emod,
    show Int32.size = 4294967296 from rfl]
  split <;> split <;> omega

omit [LawfulExt] [FloatText] in
theorem int32_apart (a : Int32) (i j : Nat) (hi : i < 2 ^ 32) (hj : j < 2 ^ 32)
    (h : a + Int32.ofNat i = a + Int32.ofNat j) : i = j := by
  have e := congrArg (fun x : Int32 => x.toBitVec.toNat) h
  simp only [Int32.toBitVec_add, Int32.toBitVec_ofNat', BitVec.toNat_add, BitVec.toNat_ofNat] at e
  have := a.toBitVec.isLt
  omega

/-! ### The invariant -/

variable [Dbg] {α : Type} {checked : Bool} {kc ks : Kind}

/-- Every message handled is the answer to one of the requests, each to a different one, and has come with the data
registered for that request; pending are the data of the others. -/
def Spec.Matched (xs : List (Request × α × Message)) (rest asked : List (Request × α))
    (handled : List (Message × Option α)) (pending : RequestId → Option α) : Prop :=
  (xs.map (fun x => (x.1, x.2.1)) ++ rest).Perm asked ∧ xs.map (fun x => (x.2.2, some x.2.1)) = handled ∧
  (∀ x ∈ xs, Spec.IsReply x.1 x.2.2 ∧ ¬ Spec.Bare x.1) ∧
  ∀ id, pending id = (rest.find? fun x => x.1.id = id).map Prod.snd

/-- How a client and a server start: they are connected, everything sent before has been received, and nothing is
pending. -/
structure Spec.Ready (kc ks : Kind) (c : Asking.Client α) (io : Transport.State) : Prop where
  pair : PairReachable kc ks ⟨c.io, io⟩
  rx : io.rxAlive = true
  tx : io.txAlive = true
  heard : c.io.delivered.length = io.accepted.length
  said : io.delivered.length = c.io.accepted.length
  sayable : ∀ m ∈ io.accepted, Spec.Sayable m
  pending : ∀ id, c.queue.pending id = none
  outbox : c.outbox = []
  inbox : c.inbox = []
  asked : c.asked = []
  handled : c.handled = []

/-- What holds of the client and the server, whatever is sent. -/
structure AskInv (checked : Bool) (kc ks : Kind) (c0 : Asking.Client α) (io0 : Transport.State) (n : Nat) (as : List Asking.Ev)
    (w : Asking.World α) : Prop where
  pair : PairReachable kc ks ⟨w.client.io, w.pool.io⟩
  pool : ∃ bs, Pool.Steps ks (Pool.start io0 n) bs w.pool ∧ (Pool.Act.writeFails ∈ bs → Asking.Ev.writeFails ∈ as)
  said : ∃ said, w.client.io.accepted = c0.io.accepted ++ said ∧
    (Spec.requests said ++ w.client.outbox).Perm (w.client.asked.map Prod.fst)
  got : ∃ got, w.client.io.delivered = c0.io.delivered ++ got ∧
    (w.client.handled.map Prod.fst ++ w.client.inbox).Perm got
  ids : ∀ k (h : k < w.client.asked.length), w.client.asked[k].1.id = .i32 (c0.queue.next + Int32.ofNat k)
  next : w.client.queue.next = c0.queue.next + Int32.ofNat w.client.asked.length
  few : checked = true → c0.queue.next.toInt + w.client.asked.length ≤ 2 ^ 31 - 1

omit [Dbg] in
theorem pair_left {a a' b : Transport.State} {act : Transport.Act} (h : PairReachable kc ks ⟨a, b⟩)
    (hs : Transport.Step kc a act a') (hn : ∀ bs, act ≠ .arrive bs) : PairReachable kc ks ⟨a', b⟩ :=
  .step h (.left hs hn)

omit [Dbg] in
theorem pair_right {a b b' : Transport.State} {act : Transport.Act} (h : PairReachable kc ks ⟨a, b⟩)
    (hs : Transport.Step ks b act b') (hn : ∀ bs, act ≠ .arrive bs) : PairReachable kc ks ⟨a, b'⟩ :=
  .step h (.right hs hn)

omit [Dbg] in
/-- A step of a thread changes nothing the applications see. -/
theorem thread_same {k : Kind} {s s' : Transport.State} {act : Transport.Act} (h : Transport.Step k s act s')
    (ha : Pool.kindOf act ≠ none) : s'.accepted = s.accepted ∧ s'.delivered = s.delivered := by
  cases h <;> first | (exact ⟨rfl, rfl⟩) | (exact absurd rfl ha) | skip
  rename_i r _ _
  cases r <;> exact ⟨rfl, rfl⟩

omit [Dbg] [FloatText] in
theorem thread_no_arrive {act : Transport.Act} (ha : Pool.kindOf act = some .thread) : ∀ bs, act ≠ .arrive bs := by
  rintro bs rfl; cases ha

theorem pool_pair {a : Transport.State} {p q : Pool.State} {act : Pool.Act} (h : PairReachable kc ks ⟨a, p.io⟩)
    (hs : Pool.Step ks p act q) (hn : act ≠ .peer) : PairReachable kc ks ⟨a, q.io⟩ := by
  cases hs with
  | io h1 h2 =>
    refine pair_right h h1 ?_
    rintro bs rfl
    simp [Pool.kindOf] at h2
    exact hn h2.symm
  | recv _ h1 => exact pair_right h h1 (by simp)
  | send _ h1 => exact pair_right h h1 (by simp)
  | closed _ _ => exact h
  | unsent _ _ => exact h
  | timeout => exact h
  | dropRx _ _ => exact pair_right h (.dropRx _) (by simp)
  | dropTx _ _ => exact pair_right h (.dropTx _) (by simp)

theorem askInv {c0 : Asking.Client α} {io0 : Transport.State} (hr : Spec.Ready kc ks c0 io0) {n : Nat}
    {as : List Asking.Ev} {w : Asking.World α} (h : Asking.Steps checked kc ks ⟨c0, Pool.start io0 n⟩ as w) :
    AskInv checked kc ks c0 io0 n as w := by
  induction h with
  | nil =>
    refine ⟨hr.pair, ⟨[], .nil _, by simp⟩, ⟨[], by simp, ?_⟩, ⟨[], by simp, ?_⟩, ?_, ?_, ?_⟩
    · simp [hr.outbox, hr.asked, Spec.requests]
    · simp [hr.handled, hr.inbox]
    · simp [hr.asked]
    · simp [hr.asked]
    · intro _
      have := c0.queue.next.toInt_lt
      simp only [hr.asked, List.length_nil]
      omega
  | @snoc as v a u _ hs ih =>
    obtain ⟨h1, ⟨bs, h2, h2'⟩, ⟨said, h3, h3'⟩, ⟨got, h4, h4'⟩, h5, h6, h7⟩ := ih
    have hm : Pool.Act.writeFails ∈ bs → Asking.Ev.writeFails ∈ as ++ [a] := fun h => List.mem_append_left _ (h2' h)
    cases hs with
    | @ask d id q r hq hi =>
      obtain ⟨q1, q2, q3⟩ : id = .i32 v.client.queue.next ∧ q.next = v.client.queue.next + 1 ∧
          (checked = true → v.client.queue.next ≠ Int32.maxValue) := by
        simp only [Outgoing.register] at hq
        split at hq
        · cases hq
        · rename_i hne; cases hq; exact ⟨rfl, rfl, fun h1 h2 => hne ⟨h1, h2⟩⟩
      refine ⟨h1, ⟨bs, h2, hm⟩, ⟨said, h3, ?_⟩, ⟨got, h4, h4'⟩, ?_, ?_, ?_⟩
      · simp only [List.map_append, ← List.append_assoc]
        exact h3'.append_right _
      · intro k hk
        simp only [List.length_append, List.length_singleton] at hk
        rcases Nat.lt_or_ge k v.client.asked.length with h | h
        · rw [List.getElem_append_left h]; exact h5 k h
        · have hk : k = v.client.asked.length := by omega
          subst hk
          simp only [List.getElem_append_right (Nat.le_refl _), Nat.sub_self, List.getElem_cons_zero]
          rw [hi, q1, h6]
      · simp only [q2, h6, List.length_append, List.length_singleton, Int32.ofNat_add]
        exact Int32.add_assoc _ _ _
      · intro hc
        have := h7 hc
        have hne := q3 hc
        have e := int32_far _ _ this
        rw [← h6] at e
        have : v.client.queue.next.toInt ≠ 2 ^ 31 - 1 := fun h => hne (Int32.toInt_inj.1 h)
        simp only [List.length_append, List.length_singleton]
        omega
    | @send a b r io ho hs =>
      cases hs with
      | accept _ hw ht =>
        refine ⟨pair_left h1 (.accept _ _ hw ht) (by simp), ⟨bs, h2, hm⟩, ⟨said ++ [.request r], ?_, ?_⟩, ⟨got, h4, h4'⟩,
          h5, h6, h7⟩
        · simp [h3]
        · rw [ho] at h3'
          refine List.Perm.trans ?_ h3'
          rw [reqs_append]
          simp only [Spec.requests, List.append_assoc, List.singleton_append]
          exact List.Perm.append_left _ List.perm_middle.symm
    | @say m io hn hs =>
      cases hs with
      | accept _ hw ht =>
        refine ⟨pair_left h1 (.accept _ _ hw ht) (by simp), ⟨bs, h2, hm⟩, ⟨said ++ [m], ?_, ?_⟩, ⟨got, h4, h4'⟩, h5, h6, h7⟩
        · simp [h3]
        · rw [reqs_append]
          cases m with
          | request r => exact absurd rfl (hn r)
          | _ => simpa [Spec.requests] using h3'
    | @recv m io hs =>
      cases hs with
      | deliver _ h8 h9 =>
        refine ⟨pair_left h1 (.deliver _ _ h8 h9) (by simp), ⟨bs, h2, hm⟩, ⟨said, h3, h3'⟩, ⟨got ++ [m], ?_, ?_⟩, h5, h6, h7⟩
        · simp [h4]
        · rw [← List.append_assoc]
          exact h4'.append_right _
    | @handle a b m hi =>
      have key : (v.client.handle m).io = v.client.io ∧ (v.client.handle m).asked = v.client.asked ∧
          (v.client.handle m).outbox = v.client.outbox ∧ (v.client.handle m).queue.next = v.client.queue.next ∧
          ∃ x, (v.client.handle m).handled = v.client.handled ++ [(m, x)] := by
        cases m <;> exact ⟨rfl, rfl, rfl, rfl, _, rfl⟩
      obtain ⟨k1, k2, k3, k4, x, k5⟩ := key
      refine ⟨by simpa only [k1] using h1, ⟨bs, h2, hm⟩, ⟨said, by simpa only [k1] using h3, by simpa only [k2, k3] using h3'⟩,
        ⟨got, by simpa only [k1] using h4, ?_⟩, by simpa only [k2] using h5, by simpa only [k2, k4] using h6,
        by simpa only [k2] using h7⟩
      rw [hi] at h4'
      refine List.Perm.trans ?_ h4'
      simp only [k5, List.map_append, List.map_cons, List.map_nil, List.append_assoc, List.singleton_append]
      exact List.Perm.append_left _ List.perm_middle.symm
    | @thread act io hs hk =>
      obtain ⟨e1, e2⟩ := thread_same hs (by rw [hk]; simp)
      exact ⟨pair_left h1 hs (thread_no_arrive hk), ⟨bs, h2, hm⟩, ⟨said, e1.trans h3, h3'⟩, ⟨got, e2.trans h4, h4'⟩, h5, h6, h7⟩
    | @fails io hs =>
      obtain ⟨e1, e2⟩ := thread_same hs (by simp [Pool.kindOf])
      exact ⟨pair_left h1 hs (by simp), ⟨bs, h2, hm⟩, ⟨said, e1.trans h3, h3'⟩, ⟨got, e2.trans h4, h4'⟩, h5, h6, h7⟩
    | @toClient bs' io hb hp hs =>
      obtain ⟨e1, e2⟩ := thread_same hs (by simp [Pool.kindOf])
      exact ⟨.step h1 (.toLeft hp hs), ⟨bs, h2, hm⟩, ⟨said, e1.trans h3, h3'⟩, ⟨got, e2.trans h4, h4'⟩, h5, h6, h7⟩
    | @cutClient b io hs =>
      obtain ⟨e1, e2⟩ := thread_same hs (by simp [Pool.kindOf])
      exact ⟨pair_left h1 hs (by simp), ⟨bs, h2, hm⟩, ⟨said, e1.trans h3, h3'⟩, ⟨got, e2.trans h4, h4'⟩, h5, h6, h7⟩
    | @toServer bs' io hb hp hs =>
      exact ⟨.step h1 (.toRight hp hs), ⟨_, .snoc h2 (.io hs rfl), by simpa using hm⟩, ⟨said, h3, h3'⟩, ⟨got, h4, h4'⟩, h5, h6, h7⟩
    | @cutServer b io hs =>
      exact ⟨pair_right h1 hs (by simp), ⟨_, .snoc h2 (.io hs rfl), by simpa using hm⟩, ⟨said, h3, h3'⟩, ⟨got, h4, h4'⟩, h5, h6, h7⟩
    | @server a p hs hn =>
      refine ⟨pool_pair h1 hs hn, ⟨_, .snoc h2 hs, ?_⟩, ⟨said, h3, h3'⟩, ⟨got, h4, h4'⟩, h5, h6, h7⟩
      intro h
      rcases List.mem_append.1 h with h | h
      · exact hm h
      · simp only [List.mem_singleton] at h
        subst h
        simp [Asking.evOf]


/-! ### Every response has its request -/

omit [FloatText] [Dbg] in
/-- The id of a response. -/
def rid : Message → Option RequestId
  | .response x => some x.id
  | _ => none

omit [FloatText] [Dbg] in
theorem rid_reply {r : Request} {m : Message} (h : Spec.IsReply r m) : rid m = some r.id := by
  obtain ⟨x, rfl, h1, _⟩ := h
  simp [rid, h1]

omit [FloatText] [Dbg] in
theorem rid_answerTo (r : Request) : rid (answerTo r) = some r.id := by
  cases r with
  | shutdown id => rfl
  | _ => exact rid_reply (isReply _)

omit [FloatText] [Dbg] in
theorem answerTo_reply {r : Request} (h : ∀ id, r ≠ .shutdown id) : answerTo r = reply r := by
  cases r with
  | shutdown id => exact absurd rfl (h id)
  | _ => rfl

omit [FloatText] [Dbg] in
theorem rid_heard (m : Message) (x : RequestId) (h : rid m = some x) : rid (Spec.heard m) = some x := by
  cases m with
  | response y => cases h; rfl
  | request r => cases h
  | notification n => cases h

theorem asked_nodup {c0 : Asking.Client α} {io0 : Transport.State} {n : Nat} {as : List Asking.Ev} {w : Asking.World α}
    (hi : AskInv checked kc ks c0 io0 n as w) (hn : checked = true ∨ w.client.asked.length ≤ 2 ^ 32) :
    (w.client.asked.map fun x => x.1.id).Nodup := by
  have hlen : w.client.asked.length ≤ 2 ^ 32 := by
    rcases hn with h | h
    · have := hi.few h
      have := c0.queue.next.le_toInt
      omega
    · exact h
  rw [List.Nodup, List.pairwise_iff_getElem]
  intro i j h1 h2 hij he
  simp only [List.length_map] at h1 h2
  simp only [List.getElem_map] at he
  rw [hi.ids i h1, hi.ids j h2, RequestId.i32.injEq] at he
  have := int32_apart _ i j (by omega) (by omega) he
  omega

theorem ask_facts {c0 : Asking.Client α} {io0 : Transport.State} {n : Nat} {as : List Asking.Ev} {w : Asking.World α}
    (hr : Spec.Ready kc ks c0 io0) (hi : AskInv checked kc ks c0 io0 n as w)
    (hn : checked = true ∨ w.client.asked.length ≤ 2 ^ 32)
    (hm : ∀ m ∈ w.client.io.accepted, Spec.Sayable m) :
    ((w.client.handled.map Prod.fst ++ w.client.inbox).map rid).Nodup ∧
    (∀ m ∈ w.client.handled.map Prod.fst ++ w.client.inbox, ∃ x ∈ w.client.asked, Spec.IsReply x.1 m ∧ ¬ Spec.Bare x.1) ∧
    (∀ m ∈ w.pool.io.accepted, Spec.Sayable m) := by
  have hnd := asked_nodup hi hn
  obtain ⟨bs, hp, _⟩ := hi.pool
  obtain ⟨said, hs1, hs2⟩ := hi.said
  obtain ⟨got, hg1, hg2⟩ := hi.got
  have hio := (pair_inv hr.pair).2.1
  obtain ⟨_, _, _, _, ds, sent, served, lost, failed, T⟩ := poolInv hio hr.rx hr.tx hp
  -- what the server has received
  have hds : ds <+: said.map Spec.heard := by
    have h1 := C56_heard hi.pair hm
    simp only [T.delivered, hs1, List.map_append] at h1
    obtain ⟨t, ht⟩ := h1
    rw [List.append_assoc] at ht
    exact ⟨t, List.append_inj_right ht (by simpa using hr.said)⟩
  have hreqs : Spec.requests ds <+: Spec.requests (said.map Spec.heard) := by
    obtain ⟨t, ht⟩ := hds
    rw [← ht, reqs_append]
    exact List.prefix_append _ _
  have hask : ∀ r ∈ Spec.requests said, ∃ x ∈ w.client.asked, x.1 = r := by
    intro r h
    have := hs2.mem_iff.1 (List.mem_append_left _ h)
    obtain ⟨x, h1, h2⟩ := List.mem_map.1 this
    exact ⟨x, h1, h2⟩
  have hserved : ∀ r ∈ served, ∃ x ∈ w.client.asked, Spec.heard (.request x.1) = .request r := by
    intro r h
    have h1 := T.received.mem_iff.1 (List.mem_append_left _ h)
    obtain ⟨q, h2, h3⟩ := mem_requests_heard (hreqs.subset h1)
    obtain ⟨x, h4, rfl⟩ := hask q h2
    exact ⟨x, h4, h3⟩
  have hsent : ∀ m ∈ sent, ∃ x ∈ w.client.asked, ∃ r, Spec.heard (.request x.1) = .request r ∧ m = reply r := by
    intro m h
    have h1 := T.answered.mem_iff.1 (List.mem_append_left _ (List.mem_append_left _ h))
    obtain ⟨r, h2, rfl⟩ := List.mem_map.1 h1
    obtain ⟨x, h3, h4⟩ := hserved r h2
    exact ⟨x, h3, r, h4, answerTo_reply (heard_asked h4).2.2.1⟩
  have hsay : ∀ m ∈ w.pool.io.accepted, Spec.Sayable m := by
    intro m h
    rw [T.accepted] at h
    rcases List.mem_append.1 h with h | h
    · exact hr.sayable m h
    · obtain ⟨x, h1, r, h2, rfl⟩ := hsent m h
      obtain ⟨k, hk, hx⟩ := List.mem_iff_getElem.1 h1
      have hid := hi.ids k hk
      rw [hx, ← (heard_asked h2).1] at hid
      refine ⟨.inl ?_, small_id hid⟩
      obtain ⟨y, hy, _⟩ := isReply r
      rw [hy]; trivial
  -- what the client has received
  have hgot : got <+: sent.map Spec.heard := by
    have h1 := C56_heard (pair_swap hi.pair) hsay
    simp only [hg1, T.accepted, List.map_append] at h1
    obtain ⟨t, ht⟩ := h1
    rw [List.append_assoc] at ht
    exact ⟨t, List.append_inj_right ht (by simpa using hr.heard)⟩
  refine ⟨?_, ?_, hsay⟩
  · refine (hg2.map rid).nodup_iff.2 ?_
    have h1 : ((Spec.requests said).map Request.id).Nodup := by
      have := (hs2.map Request.id).nodup_iff.2 (by simpa [Function.comp_def] using hnd)
      rw [List.map_append] at this
      exact (List.nodup_append.1 this).1
    have h2 : (served.map Request.id).Nodup := by
      have h3 := h1.sublist ((hreqs.sublist.map Request.id).trans (requests_heard_ids said))
      have h4 := (T.received.map Request.id).nodup_iff.2 h3
      rw [List.map_append] at h4
      exact (List.nodup_append.1 h4).1
    have h3 : (sent.map rid).Nodup := by
      have h4 := (T.answered.map rid).nodup_iff.2 (by
        rw [List.map_map]
        have e : rid ∘ answerTo = some ∘ Request.id := by funext r; simp [rid_answerTo]
        rw [e, ← List.map_map]
        exact List.pairwise_map.2 (h2.imp (fun h e => h (by simpa using e))))
      rw [List.map_append, List.map_append] at h4
      exact (List.nodup_append.1 (List.nodup_append.1 h4).1).1
    have h4 : (sent.map Spec.heard).map rid = sent.map rid := by
      rw [List.map_map]
      refine List.map_congr_left ?_
      intro m hm
      obtain ⟨x, _, r, h5, rfl⟩ := hsent m hm
      have h6 := rid_reply (isReply r)
      rw [Function.comp_apply, h6]
      exact rid_heard _ _ h6
    refine List.Nodup.sublist (hgot.sublist.map rid) ?_
    rw [h4]; exact h3
  · intro m h
    have h1 := hgot.subset (hg2.mem_iff.1 h)
    obtain ⟨m', h2, rfl⟩ := List.mem_map.1 h1
    obtain ⟨x, h3, r, h4, rfl⟩ := hsent m' h2
    exact ⟨x, h3, (heard_asked h4).2.2.2, (heard_asked h4).2.1⟩


theorem ask_mono {v u : Asking.World α} {a : Asking.Ev} (h : Asking.Step checked kc ks v a u) :
    v.client.asked.length ≤ u.client.asked.length ∧ v.client.io.accepted <+: u.client.io.accepted := by
  cases h with
  | ask _ _ => exact ⟨by simp, List.prefix_rfl⟩
  | send _ hs => cases hs with | accept _ _ _ => exact ⟨Nat.le_refl _, List.prefix_append _ _⟩
  | say _ hs => cases hs with | accept _ _ _ => exact ⟨Nat.le_refl _, List.prefix_append _ _⟩
  | recv hs => cases hs with | deliver _ _ _ => exact ⟨Nat.le_refl _, List.prefix_rfl⟩
  | @handle a b m _ => cases m <;> exact ⟨Nat.le_refl _, List.prefix_rfl⟩
  | thread hs hk => exact ⟨Nat.le_refl _, (thread_same hs (by rw [hk]; simp)).1 ▸ List.prefix_rfl⟩
  | fails hs => exact ⟨Nat.le_refl _, (thread_same hs (by simp [Pool.kindOf])).1 ▸ List.prefix_rfl⟩
  | toClient _ _ hs => exact ⟨Nat.le_refl _, (thread_same hs (by simp [Pool.kindOf])).1 ▸ List.prefix_rfl⟩
  | cutClient hs => exact ⟨Nat.le_refl _, (thread_same hs (by simp [Pool.kindOf])).1 ▸ List.prefix_rfl⟩
  | toServer _ _ _ => exact ⟨Nat.le_refl _, List.prefix_rfl⟩
  | cutServer _ => exact ⟨Nat.le_refl _, List.prefix_rfl⟩
  | server _ _ => exact ⟨Nat.le_refl _, List.prefix_rfl⟩

omit [LawfulExt] [FloatText] [Dbg] in
theorem find_nodup [Ext] {l : List (Request × α)} (h : (l.map fun x => x.1.id).Nodup) {x : Request × α} (hx : x ∈ l) :
    l.find? (fun y => y.1.id = x.1.id) = some x := by
  induction l with
  | nil => cases hx
  | cons y l ih =>
    simp only [List.map_cons, List.nodup_cons, List.mem_map, not_exists, not_and] at h
    rcases List.mem_cons.1 hx with rfl | hx
    · simp
    · have : y.1.id ≠ x.1.id := fun e => h.1 x hx e.symm
      simp [this, ih h.2 hx]

/-- C118: a client numbers its requests with `Outgoing`, sends them to a server whose workers share the connection and
answer in any order, and completes each message it receives.  Whatever the order of all steps, also if writes fail or
the connection is cut: every message handled is the answer to one of the requests asked, each to a different one, and
the queue has returned the data registered for that very request; what is still pending are the data of the other
requests.  Condition: additions are checked for overflow, or no more than 2^32 requests have been made. -/
theorem C118_matched {c0 : Asking.Client α} {io0 : Transport.State} (hr : Spec.Ready kc ks c0 io0) {n : Nat}
    {as : List Asking.Ev} {w : Asking.World α} (h : Asking.Steps checked kc ks ⟨c0, Pool.start io0 n⟩ as w)
    (hn : checked = true ∨ w.client.asked.length ≤ 2 ^ 32) (hm : ∀ m ∈ w.client.io.accepted, Spec.Sayable m) :
    ∃ xs rest, Spec.Matched xs rest w.client.asked w.client.handled w.client.queue.pending := by
  induction h with
  | nil => exact ⟨[], [], by simp [hr.asked], by simp [hr.handled], by simp, by simp [hr.pending]⟩
  | @snoc as v a u hv hs ih =>
    obtain ⟨k1, k2⟩ := ask_mono hs
    have hn' : checked = true ∨ v.client.asked.length ≤ 2 ^ 32 := hn.imp_right (fun h => Nat.le_trans k1 h)
    have hm' : ∀ m ∈ v.client.io.accepted, Spec.Sayable m := fun m h => hm m (k2.subset h)
    obtain ⟨xs, rest, h1, h2, h3, h4⟩ := ih hn' hm'
    have hinv := askInv hr hv
    have hinv' := askInv hr (.snoc hv hs)
    have same : u.client.asked = v.client.asked → u.client.handled = v.client.handled →
        u.client.queue = v.client.queue →
        ∃ xs rest, Spec.Matched xs rest u.client.asked u.client.handled u.client.queue.pending := by
      intro e1 e2 e3
      rw [e1, e2, e3]
      exact ⟨xs, rest, h1, h2, h3, h4⟩
    cases hs with
    | @ask d id q r hq hi =>
      have hd := asked_nodup hinv' hn
      obtain ⟨q1, q2⟩ : id = .i32 v.client.queue.next ∧
          ∀ i, q.pending i = if i = id then some d else v.client.queue.pending i := by
        simp only [Outgoing.register] at hq
        split at hq
        · cases hq
        · cases hq; exact ⟨rfl, fun i => rfl⟩
      refine ⟨xs, rest ++ [(r, d)], ?_, h2, h3, ?_⟩
      · rw [← List.append_assoc]; exact h1.append_right _
      · intro i
        simp only [q2, h4, List.find?_append]
        by_cases hii : i = id
        · rw [if_pos hii]
          have : rest.find? (fun x => x.1.id = i) = none := by
            rw [List.find?_eq_none]
            intro x hx he
            simp only [decide_eq_true_eq] at he
            have h5 : x ∈ v.client.asked := h1.mem_iff.1 (List.mem_append_right _ hx)
            simp only [List.map_append, List.map_cons, List.map_nil, List.nodup_append] at hd
            exact hd.2.2 x.1.id (List.mem_map.2 ⟨x, h5, rfl⟩) r.id (by simp) (by rw [he, hii, hi])
          rw [this]
          simp [hi, hii]
        · rw [if_neg hii]
          have : r.id ≠ i := fun e => hii (by rw [← e, hi])
          cases rest.find? (fun x => x.1.id = i) <;> simp [this]
    | @handle a b m hi =>
      obtain ⟨f1, f2, _⟩ := ask_facts hr hinv hn' hm'
      have hd := asked_nodup hinv hn'
      obtain ⟨x, hx, hrep, hbare⟩ := f2 m (List.mem_append_right _ (by rw [hi]; simp))
      have hid := rid_reply hrep
      obtain ⟨y, rfl, hy, _⟩ := id hrep
      -- it has not been handled before
      have hnew : ∀ z ∈ xs, z.1.id ≠ x.1.id := by
        intro z hz he
        have h5 : z.2.2 ∈ v.client.handled.map Prod.fst := by
          rw [← h2]
          simp only [List.map_map]
          exact List.mem_map.2 ⟨z, hz, rfl⟩
        have h6 := rid_reply (h3 z hz).1
        rw [List.map_append, List.nodup_append] at f1
        exact f1.2.2 (rid z.2.2) (List.mem_map.2 ⟨_, h5, rfl⟩) (rid (.response y))
          (List.mem_map.2 ⟨_, by rw [hi]; simp, rfl⟩) (by rw [h6, hid, he])
      have hmem : x ∈ rest := by
        rcases List.mem_append.1 (h1.mem_iff.2 hx) with h5 | h5
        · obtain ⟨z, hz, rfl⟩ := List.mem_map.1 h5
          exact absurd rfl (hnew z hz)
        · exact h5
      have hdr : (rest.map fun x => x.1.id).Nodup := by
        have := (h1.map fun x => x.1.id).nodup_iff.2 hd
        rw [List.map_append] at this
        exact (List.nodup_append.1 this).2.1
      have hpend : v.client.queue.pending y.id = some x.2 := by
        rw [h4, hy, find_nodup hdr hmem]
        rfl
      obtain ⟨r1, r2, rfl⟩ := List.append_of_mem hmem
      refine ⟨xs ++ [(x.1, x.2, .response y)], r1 ++ r2, ?_, ?_, ?_, ?_⟩
      · refine List.Perm.trans ?_ h1
        simp only [List.map_append, List.map_cons, List.map_nil, List.append_assoc, List.singleton_append]
        exact List.Perm.append_left _ List.perm_middle.symm
      · simp only [List.map_append, List.map_cons, List.map_nil, h2, Asking.Client.handle, Outgoing.complete,
          Table.remove, hpend]
      · intro z hz
        rcases List.mem_append.1 hz with hz | hz
        · exact h3 z hz
        · simp only [List.mem_singleton] at hz
          subst hz
          exact ⟨hrep, hbare⟩
      · intro i
        simp only [Asking.Client.handle, Outgoing.complete, Table.remove]
        simp only [List.map_append, List.map_cons, List.nodup_append, List.nodup_cons, List.mem_map,
          List.mem_cons] at hdr
        by_cases hi : i = y.id
        · subst hi
          rw [if_pos rfl]
          have : (r1 ++ r2).find? (fun z => z.1.id = y.id) = none := by
            rw [List.find?_eq_none]
            intro z hz he
            simp only [decide_eq_true_eq] at he
            rw [hy] at he
            rcases List.mem_append.1 hz with hz | hz
            · exact hdr.2.2 _ ⟨z, hz, rfl⟩ _ (.inl rfl) he
            · exact hdr.2.1.1 ⟨z, hz, he⟩
          rw [this]; rfl
        · rw [if_neg hi, h4]
          have : x.1.id ≠ i := fun e => hi (by rw [← e, hy])
          simp [List.find?_append, this]
    | send _ hs => exact same rfl rfl rfl
    | say _ hs => exact same rfl rfl rfl
    | recv hs => exact same rfl rfl rfl
    | thread hs hk => exact same rfl rfl rfl
    | fails hs => exact same rfl rfl rfl
    | toClient _ _ hs => exact same rfl rfl rfl
    | cutClient hs => exact same rfl rfl rfl
    | toServer _ _ _ => exact same rfl rfl rfl
    | cutServer _ => exact same rfl rfl rfl
    | server _ _ => exact same rfl rfl rfl

/-! ### When nothing more can happen -/

/-- The two sides are connected and stay so: no stream has ended, no write has failed, neither side has sent exit, and
the client keeps its ends of the channels. -/
structure Spec.Up (kc ks : Kind) (c io : Transport.State) : Prop where
  inC : c.inEnd = none
  inS : io.inEnd = none
  outC : c.writer ≠ writeError kc
  outS : io.writer ≠ writeError ks
  rx : c.rxAlive = true
  tx : c.txAlive = true
  stays : Message.notification .exit ∉ io.accepted

/-- As long as nothing is cut and no write fails. -/
theorem ask_up {c0 : Asking.Client α} {io0 : Transport.State} (hu : Spec.Up kc ks c0.io io0) {n : Nat}
    {as : List Asking.Ev} {w : Asking.World α} (h : Asking.Steps checked kc ks ⟨c0, Pool.start io0 n⟩ as w)
    (hc : Asking.Ev.hangUp ∉ as) (hf : Asking.Ev.writeFails ∉ as) :
    w.client.io.inEnd = none ∧ w.pool.io.inEnd = none ∧ w.client.io.writer ≠ writeError kc ∧
    w.client.io.rxAlive = true ∧ w.client.io.txAlive = true := by
  induction h with
  | nil => exact ⟨hu.inC, hu.inS, hu.outC, hu.rx, hu.tx⟩
  | @snoc as v a u hv hs ih =>
    simp only [List.mem_append, List.mem_singleton, not_or] at hc hf
    obtain ⟨h1, h2, h3, h4, h5⟩ := ih hc.1 hf.1
    cases hs with
    | ask _ _ => exact ⟨h1, h2, h3, h4, h5⟩
    | send _ hs => cases hs with | accept _ _ _ => exact ⟨h1, h2, by cases kc <;> simp [writeError], h4, h5⟩
    | say _ hs => cases hs with | accept _ _ _ => exact ⟨h1, h2, by cases kc <;> simp [writeError], h4, h5⟩
    | recv hs => cases hs with | deliver _ _ _ => exact ⟨h1, h2, h3, h4, h5⟩
    | @handle a b m _ => cases m <;> exact ⟨h1, h2, h3, h4, h5⟩
    | thread hs hk =>
      cases hs <;> first | (cases hk; done) | skip
      · rename_i r _ _
        cases r <;> exact ⟨h1, h2, h3, h4, h5⟩
      · exact ⟨h1, h2, h3, h4, h5⟩
      · exact ⟨h1, h2, by cases kc <;> simp [writeError], h4, h5⟩
      · exact ⟨h1, h2, by cases kc <;> simp [writeError], h4, h5⟩
      · exact ⟨h1, h2, by cases kc <;> simp [writeError], h4, h5⟩
    | fails hs => exact absurd rfl hf.2
    | toClient _ _ hs => cases hs with | arrive _ _ => exact ⟨h1, h2, h3, h4, h5⟩
    | cutClient hs => exact absurd rfl hc.2
    | toServer _ _ hs => cases hs with | arrive _ _ => exact ⟨h1, h2, h3, h4, h5⟩
    | cutServer hs => exact absurd rfl hc.2
    | server hs hn =>
      refine ⟨h1, ?_, h3, h4, h5⟩
      generalize v.pool = q at hs h2
      cases hs with
      | io hs hk =>
        cases hs <;> first | exact h2 | (simp [Pool.kindOf] at hk; exact absurd hk.symm hn) | skip
        rename_i r _ _
        cases r <;> exact h2
      | recv _ hs => cases hs with | deliver _ _ _ => exact h2
      | send _ hs => cases hs with | accept _ _ _ => exact h2
      | _ => exact h2

omit [Dbg] in
/-- A reader whose stream is up does not end by itself. -/
theorem not_over {p : Pair} (h : PairReachable kc ks p) (ha : ∀ m ∈ p.a.accepted, Spec.Sayable m)
    (hx : Message.notification .exit ∉ p.a.accepted) (hup : p.b.inEnd = none) : ¬ Over p.b := by
  have hh := C56_heard h ha
  rintro (h1 | ⟨stop, hi⟩)
  · obtain ⟨m, h2, h3⟩ := List.mem_map.1 (hh.subset h1)
    exact hx (heard_exit h3 ▸ h2)
  · obtain ⟨h1, h2, h3, _⟩ := pair_inv h
    obtain ⟨more, hm⟩ := h3.trans (C53_output h1).1
    simp only [Spec.Input, hup] at hi
    have e1 := hi more false
    have e2 := hi (more ++ Frame.write (.notification .exit)) false
    rw [← List.append_assoc] at e2
    rw [hm, C13_heard_stream _ ha] at e1
    have e3 : p.a.accepted.flatMap Frame.write ++ Frame.write (.notification .exit) =
      (p.a.accepted ++ [Message.notification .exit]).flatMap Frame.write := by simp
    rw [hm, e3, C13_heard_stream _ (by
      intro m hm
      rcases List.mem_append.1 hm with hm | hm
      · exact ha m hm
      · simp only [List.mem_singleton] at hm
        subst hm
        exact ⟨.inl trivial, exit_carried⟩)] at e2
    rw [← e2] at e1
    have := congrArg (fun x => x.1.length) e1
    simp at this

/-- C118: no write fails, nothing is cut, the client does not send exit, and nothing more can happen by itself.  Then the
requests that have been answered are exactly those that are sent with params: the queue has the data of the others only,
and the client has handled all there is. -/
theorem C118_rest {c0 : Asking.Client α} {io0 : Transport.State} (hr : Spec.Ready kc ks c0 io0)
    (hu : Spec.Up kc ks c0.io io0) {n : Nat} (h0 : 0 < n)
    {as : List Asking.Ev} {w : Asking.World α} (h : Asking.Steps checked kc ks ⟨c0, Pool.start io0 n⟩ as w)
    (hc : Asking.Ev.hangUp ∉ as) (hf : Asking.Ev.writeFails ∉ as) (hq : Asking.Quiet checked kc ks w)
    (hn : checked = true ∨ w.client.asked.length ≤ 2 ^ 32) (hm : ∀ m ∈ w.client.io.accepted, Spec.Sayable m)
    (hx : Message.notification .exit ∉ w.client.io.accepted) :
    w.client.outbox = [] ∧ w.client.inbox = [] ∧
    ∃ xs rest, Spec.Matched xs rest w.client.asked w.client.handled w.client.queue.pending ∧
      ∀ x ∈ rest, Spec.Bare x.1 := by
  obtain ⟨u1, u2, u3, u4, u5⟩ := ask_up hu h hc hf
  have hi := askInv hr h
  obtain ⟨_, _, hsay⟩ := ask_facts hr hi hn hm
  have hnd := asked_nodup hi hn
  obtain ⟨bs, hp, hpf⟩ := hi.pool
  obtain ⟨said, hs1, hs2⟩ := hi.said
  obtain ⟨got, hg1, hg2⟩ := hi.got
  obtain ⟨p1, p2, p3, p4⟩ := pair_inv hi.pair
  have hio := (pair_inv hr.pair).2.1
  have hds : w.pool.io.delivered <+: w.client.io.accepted.map Spec.heard := C56_heard hi.pair hm
  have move : ∀ {v}, ¬ Asking.Step checked kc ks w .move v := fun h => (hq _ _ h).1 rfl
  -- the client's writer
  have hw : w.client.io.writer = .idle := by
    have hwi := writeInv p1
    cases hwr : w.client.io.writer with
    | idle => rfl
    | done => have := (C54_drained p1 hwr).1; rw [u5] at this; cases this
    | writing rest =>
      cases rest with
      | nil => exact (move (.thread (.written _ hwr) rfl)).elim
      | cons y rest => exact (move (.thread (.write _ [y] rest hwr (by simp)) rfl)).elim
    | failed => simp only [WriteInv, hwr] at hwi; rw [hwr, hwi.1] at u3; exact absurd rfl u3
    | panicked => simp only [WriteInv, hwr] at hwi; rw [hwr, hwi.1] at u3; exact absurd rfl u3
  have hout : w.client.io.out = w.client.io.accepted.flatMap Frame.write := by
    have hwi := writeInv p1
    simp only [WriteInv, hw] at hwi; exact hwi
  have hob : w.client.outbox = [] := by
    cases ho : w.client.outbox with
    | nil => rfl
    | cons r l => exact (move (.send (a := []) ho (.accept _ _ hw u5))).elim
  have hib : w.client.inbox = [] := by
    cases ho : w.client.inbox with
    | nil => rfl
    | cons r l => exact (move (.handle (a := []) ho)).elim
  -- the server
  have hpq : Pool.Quiet ks w.pool := by
    intro a q hs
    by_cases ha : a = .peer
    · exact .inl ha
    · right
      have := hq _ _ (.server hs ha)
      cases a <;> simp [Asking.evOf] at this ⊢
  have hov : ¬ Over w.pool.io := not_over hi.pair hm hx u2
  have hpw : Pool.Act.writeFails ∉ bs := fun h => hf (hpf h)
  have hns : Spec.NoShutdown (w.pool.io.delivered.drop io0.delivered.length) := by
    intro id hd
    obtain ⟨m, h1, h2⟩ := List.mem_map.1 (hds.subset (List.mem_of_mem_drop hd))
    cases m with
    | request r => exact (heard_asked h2).2.2.1 id rfl
    | response r => cases h2
    | notification r => cases h2
  obtain ⟨ds, sent, d1, d2, d3, d4, d5⟩ := C116_rest hio hr.rx hr.tx hu.outS h0 hp hpw hpq hns
  have hidle : w.pool.workers = List.replicate n .idle := by
    rcases d5 with ⟨h1, _⟩ | ⟨_, _, h1⟩
    · exact h1
    · exact absurd h1 hov
  obtain ⟨_, _, hrec, _⟩ := pool_rest (poolInv hio hr.rx hr.tx hp) (pool_no_fail hp hpw hu.outS) hpq
  have hread := (hrec ⟨.idle, by rw [hidle]; simp; omega, rfl⟩).1
  have harr : w.pool.io.arrived = w.client.io.out := by
    obtain ⟨t, ht⟩ := p3
    by_cases hne : t = []
    · rw [← ht, hne, List.append_nil]
    · exact (move (.toServer hne (by rw [← ht]; exact List.prefix_rfl) (.arrive _ t u2))).elim
  have hdel : w.pool.io.delivered = w.client.io.accepted.map Spec.heard :=
    C56_heard_all hi.pair hm (harr.trans hout) hread (by
      rintro ⟨s', hs'⟩
      rcases hpq _ _ (.io hs' rfl) with h | h <;> cases h)
  -- the client's reader
  have hsx : Message.notification .exit ∉ w.pool.io.accepted := by
    rw [d2]
    intro hm
    rcases List.mem_append.1 hm with hm | hm
    · exact hu.stays hm
    · obtain ⟨xs, _, h2, h3⟩ := d3
      rw [← h2] at hm
      obtain ⟨y, h4, h5⟩ := List.mem_map.1 hm
      have := h3 y h4
      rw [h5] at this
      cases hy : y.1 <;> simp [Spec.IsAnswerTo, Spec.IsReply, hy] at this
  have hcr : w.client.io.reader = .reading := by
    have hov : ¬ Over w.client.io := not_over (pair_swap hi.pair) hsay hsx u1
    have ended : w.client.io.reader.ended = true → False := fun h => hov (over_closed p1 h u4)
    cases hrd : w.client.io.reader with
    | reading => rfl
    | sending m => exact (move (.recv (.deliver _ m hrd u4))).elim
    | _ => exact (ended (by rw [hrd]; rfl)).elim
  have hcarr : w.client.io.arrived = w.pool.io.out := by
    obtain ⟨t, ht⟩ := p4
    by_cases hne : t = []
    · rw [← ht, hne, List.append_nil]
    · exact (move (.toClient hne (by rw [← ht]; exact List.prefix_rfl) (.arrive _ t u1))).elim
  have hcdel : w.client.io.delivered = w.pool.io.accepted.map Spec.heard :=
    C56_heard_all (pair_swap hi.pair) hsay (hcarr.trans d4) hcr (by
      rintro ⟨s', hs'⟩
      exact move (.thread hs' rfl))
  -- together
  have e1 : ds = said.map Spec.heard := by
    rw [d1, hs1, List.map_append] at hdel
    exact List.append_inj_right hdel (by simpa using hr.said)
  have e2 : got = sent.map Spec.heard := by
    rw [hg1, d2, List.map_append] at hcdel
    exact List.append_inj_right hcdel (by simpa using hr.heard)
  obtain ⟨xs, rest, h1, h2, h3, h4⟩ := C118_matched hr h hn hm
  refine ⟨hob, hib, xs, rest, ⟨h1, h2, h3, h4⟩, ?_⟩
  intro x hxr
  refine Classical.byContradiction fun hb => ?_
  have hxa : x ∈ w.client.asked := h1.mem_iff.1 (List.mem_append_right _ hxr)
  have hxs : x.1 ∈ Spec.requests said := by
    rw [hob, List.append_nil] at hs2
    exact hs2.mem_iff.2 (List.mem_map.2 ⟨x, hxa, rfl⟩)
  obtain ⟨r', hr1, hr2⟩ := heard_not_bare hxs hb
  rw [← e1] at hr1
  obtain ⟨zs, z1, z2, z3⟩ := d3
  obtain ⟨z, hz, hz1⟩ := List.mem_map.1 (z1.mem_iff.2 hr1)
  have hz2 : rid z.2 = some x.1.id := by
    have := z3 z hz
    rw [← hr2, ← hz1]
    revert this
    generalize z.1 = q
    intro this
    cases q with
    | shutdown id => rw [show z.2 = _ from this]; rfl
    | _ => exact rid_reply this
  have hz3 : Spec.heard z.2 ∈ got := by
    rw [e2, ← z2]
    exact List.mem_map.2 ⟨_, List.mem_map.2 ⟨z, hz, rfl⟩, rfl⟩
  rw [hib, List.append_nil, ← h2] at hg2
  have hz4 := hg2.mem_iff.2 hz3
  simp only [List.map_map] at hz4
  obtain ⟨y, hy, hy1⟩ := List.mem_map.1 hz4
  have hy2 := rid_reply (h3 y hy).1
  have hy3 := rid_heard _ _ hz2
  simp only [Function.comp_apply] at hy1
  rw [← hy1, hy2, Option.some.injEq] at hy3
  have hd2 := (h1.map fun x => x.1.id).nodup_iff.2 hnd
  rw [List.map_append, List.nodup_append] at hd2
  exact hd2.2.2 y.1.id (List.mem_map.2 ⟨_, List.mem_map.2 ⟨y, hy, rfl⟩, rfl⟩) x.1.id
    (List.mem_map.2 ⟨x, hxr, rfl⟩) hy3

/-! ### Every run comes to rest -/

/-- What is left to be done: requests to be sent; bytes on their way to the server; what the server has to do; what the
client has to do with what the server has written. -/
def askWork (w : Asking.World α) : Nat × Nat × (Nat × Nat) × Nat :=
  (w.client.outbox.length,
   2 * workLeft w.client.io.writer + (w.client.io.out.length - w.pool.io.arrived.length) +
     w.pool.io.inEnd.isNone.toNat,
   poolWork w.pool,
   11 * (w.pool.io.out.length - w.client.io.arrived.length) + 10 * w.client.io.unread.length +
     (match w.client.io.reader with | .reading => 3 | .sending _ => 6 | _ => 0) + w.client.inbox.length +
     w.client.io.inEnd.isNone.toNat)

/-- One of the four parts gets smaller, those before it stay. -/
def Less (a b : Nat × Nat × (Nat × Nat) × Nat) : Prop :=
  a.1 < b.1 ∨ a.1 = b.1 ∧ (a.2.1 < b.2.1 ∨ a.2.1 = b.2.1 ∧
    (Prod.Lex (· < ·) (· < ·) a.2.2.1 b.2.2.1 ∨ a.2.2.1 = b.2.2.1 ∧ a.2.2.2 < b.2.2.2))

omit [LawfulExt] [FloatText] [Dbg] in
theorem less_wf : WellFounded Less := by
  have h : WellFounded (Prod.Lex (α := Nat) (· < ·) (Prod.Lex (α := Nat) (· < ·)
      (Prod.Lex (Prod.Lex (α := Nat) (β := Nat) (· < ·) (· < ·)) (fun a b : Nat => a < b)))) :=
    (Prod.lex ⟨_, Nat.lt_wfRel.wf⟩ (Prod.lex ⟨_, Nat.lt_wfRel.wf⟩
      (Prod.lex ⟨_, (Prod.lex ⟨_, Nat.lt_wfRel.wf⟩ ⟨_, Nat.lt_wfRel.wf⟩).wf⟩ ⟨_, Nat.lt_wfRel.wf⟩))).wf
  refine Subrelation.wf (r := _) ?_ h
  intro a b hab
  simp only [Less] at hab
  simp only [Prod.lex_def (p := a), Prod.lex_def (p := a.2), Prod.lex_def (p := a.2.2)]
  exact hab

theorem pool_keeps {p q : Pool.State} {a : Pool.Act} (h : Pool.Step ks p a q) (ha : a ≠ .peer) :
    q.io.arrived = p.io.arrived ∧ q.io.inEnd = p.io.inEnd := by
  cases h with
  | io hs hk =>
    cases hs <;> first | (exact ⟨rfl, rfl⟩) | (simp [Pool.kindOf] at hk; exact absurd hk.symm ha) | skip
    rename_i r _ _
    cases r <;> exact ⟨rfl, rfl⟩
  | recv _ hs => cases hs with | deliver _ _ _ => exact ⟨rfl, rfl⟩
  | send _ hs => cases hs with | accept _ _ _ => exact ⟨rfl, rfl⟩
  | _ => exact ⟨rfl, rfl⟩

theorem askWork_decreases {v u : Asking.World α} {a : Asking.Ev} (h : Asking.Step checked kc ks v a u) (h1 : a ≠ .ask)
    (h2 : a ≠ .say) : Less (askWork u) (askWork v) := by
  have last : ∀ {x y : Nat × Nat × (Nat × Nat) × Nat}, x.1 = y.1 → x.2.1 = y.2.1 → x.2.2.1 = y.2.2.1 →
      x.2.2.2 < y.2.2.2 → Less x y := fun h1 h2 h3 h4 => .inr ⟨h1, .inr ⟨h2, .inr ⟨h3, h4⟩⟩⟩
  cases h with
  | ask _ _ => exact absurd rfl h1
  | say _ _ => exact absurd rfl h2
  | send ho hs => exact .inl (by simp [askWork, ho])
  | recv hs =>
    cases hs with
    | deliver _ hr _ =>
      refine last rfl rfl rfl ?_
      simp only [askWork, hr, afterSend, List.length_append, List.length_cons, List.length_nil]
      split
      · omega
      · rename_i he
        split at he <;> cases he
      · omega
  | @handle a b m hi =>
    cases m <;> exact last rfl rfl rfl (by simp [askWork, hi, Asking.Client.handle])
  | thread hs hk =>
    cases hs <;> first | (cases hk; done) | skip
    case read r hr hs =>
      refine last ?_ ?_ ?_ ?_ <;> cases r <;> try rfl
      case item m rest =>
        obtain ⟨f, cs, j, hf, _, _, _, hu⟩ := settled_item hs
        have := frame_nonempty hf
        simp only [askWork, afterRead, hr, hu, List.length_append]
        omega
      all_goals cases kc <;> simp only [askWork, afterRead, readError, hr] <;> omega
    case undeliverable m hr _ => exact last rfl rfl rfl (by simp only [askWork, hr]; omega)
    case write x y hw hne =>
      have : 0 < x.length := by cases x <;> simp_all
      refine .inr ⟨rfl, .inl ?_⟩
      simp only [askWork, workLeft, hw, List.length_append]
      omega
    case written hw => exact .inr ⟨rfl, .inl (by simp [askWork, workLeft, hw])⟩
    case close hw _ => exact .inr ⟨rfl, .inl (by simp [askWork, workLeft, hw])⟩
  | fails hs =>
    cases hs with
    | writeFails b hw => exact .inr ⟨rfl, .inl (by cases kc <;> simp [askWork, workLeft, hw, writeError])⟩
  | @toClient bs _ hne hp hs =>
    cases hs with
    | arrive _ h3 =>
      refine last rfl rfl rfl ?_
      have h4 := hp.length_le
      have := List.length_pos_iff.2 hne
      simp only [List.length_append] at h4
      simp only [askWork, List.length_append]
      omega
  | cutClient hs => cases hs with | hangUp b h3 => exact last rfl rfl rfl (by simp [askWork, h3])
  | @toServer bs _ hne hp hs =>
    cases hs with
    | arrive _ h3 =>
      refine .inr ⟨rfl, .inl ?_⟩
      have h4 := hp.length_le
      have := List.length_pos_iff.2 hne
      simp only [List.length_append] at h4
      simp only [askWork, List.length_append]
      omega
  | cutServer hs => cases hs with | hangUp b h3 => exact .inr ⟨rfl, .inl (by simp [askWork, h3])⟩
  | server hs hn =>
    obtain ⟨h3, h4⟩ := pool_keeps hs hn
    exact .inr ⟨rfl, .inr ⟨by simp only [askWork, h3, h4], .inl (poolWork_decreases hs hn)⟩⟩

/-- C118: the client and the server come to rest when the client asks and says nothing more: there is no infinite run
from any state. -/
theorem C118_terminates (checked : Bool) (kc ks : Kind) : WellFounded fun u v : Asking.World α =>
    ∃ a, a ≠ .ask ∧ a ≠ .say ∧ Asking.Step checked kc ks v a u :=
  Subrelation.wf (fun ⟨_, h1, h2, h⟩ => askWork_decreases h h1 h2) (InvImage.wf askWork less_wf)

theorem asking_cons {u v w : Asking.World α} {a : Asking.Ev} {as : List Asking.Ev}
    (h1 : Asking.Step checked kc ks u a v) (h2 : Asking.Steps checked kc ks v as w) :
    Asking.Steps checked kc ks u (a :: as) w := by
  induction h2 with
  | nil => exact Asking.Steps.snoc (.nil _) h1
  | snoc _ h4 ih => exact Asking.Steps.snoc ih h4

/-- C118: from any state the two sides can come to rest by themselves: without a failing write, without a cut, without
waiting for the time limit. -/
theorem C118_settles (checked : Bool) (kc ks : Kind) (w : Asking.World α) :
    ∃ as v, Asking.Steps checked kc ks w as v ∧ Asking.Quiet checked kc ks v ∧ ∀ a ∈ as, a = .move := by
  refine (C118_terminates checked kc ks).induction (C := fun w => ∃ as v, Asking.Steps checked kc ks w as v ∧
    Asking.Quiet checked kc ks v ∧ ∀ a ∈ as, a = .move) w ?_
  intro w ih
  by_cases hq : Asking.Quiet checked kc ks w
  · exact ⟨[], w, .nil w, hq, by simp⟩
  have : ∃ v, Asking.Step checked kc ks w .move v := by
    simp only [Asking.Quiet, Classical.not_forall, not_and, Classical.not_not] at hq
    obtain ⟨a, v, h1, h2⟩ := hq
    by_cases hm : a = .move
    · exact ⟨v, hm ▸ h1⟩
    have ha := h2 hm
    subst ha
    generalize he : Asking.Ev.writeFails = e at h1
    cases h1 with
    | fails hs =>
      cases hs with
      | writeFails b hw =>
        cases b with
        | nil => exact ⟨_, .thread (.written _ hw) rfl⟩
        | cons y b => exact ⟨_, .thread (.write _ [y] b hw (by simp)) rfl⟩
    | @server a q hs hn =>
      cases a <;> simp [Asking.evOf] at he
      revert hs
      generalize hp : w.pool = p
      intro hs
      cases hs with
      | io hs hk =>
        cases hs with
        | writeFails b hw =>
          cases b with
          | nil => exact ⟨_, .server (a := .thread) (.io (.written _ (hp ▸ hw)) rfl) (by simp)⟩
          | cons y b => exact ⟨_, .server (a := .thread) (.io (.write _ [y] b (hp ▸ hw) (by simp)) rfl) (by simp)⟩
        | _ => simp [Pool.kindOf] at hk
    | _ => cases he
  obtain ⟨v, h1⟩ := this
  obtain ⟨as, u, h3, h4, h5⟩ := ih v ⟨_, by simp, by simp, h1⟩
  refine ⟨.move :: as, u, asking_cons h1 h3, h4, ?_⟩
  intro b hb
  rcases List.mem_cons.1 hb with rfl | hb
  · rfl
  · exact h5 b hb

theorem move_asked {v u : Asking.World α} {as : List Asking.Ev} (h : Asking.Steps checked kc ks v as u)
    (ha : ∀ a ∈ as, a = .move) : u.client.asked = v.client.asked := by
  induction h with
  | nil => rfl
  | @snoc as t a u hv hs ih =>
    rw [← ih (fun b hb => ha b (List.mem_append_left _ hb))]
    have := ha a (by simp)
    cases hs with
    | ask _ _ => cases this
    | @handle a b m _ => cases m <;> rfl
    | _ => rfl

/-- A client that asks only sends its requests. -/
theorem only_asked {v u : Asking.World α} {as : List Asking.Ev} (h : Asking.Steps checked kc ks v as u)
    (ha : Asking.Ev.say ∉ as) (h0 : v.client.io.accepted = []) (h1 : v.client.outbox = []) :
    (∀ r ∈ u.client.outbox, ∃ x ∈ u.client.asked, x.1 = r) ∧
    ∀ m ∈ u.client.io.accepted, ∃ x ∈ u.client.asked, m = .request x.1 := by
  induction h with
  | nil => simp [h0, h1]
  | @snoc as t a u hv hs ih =>
    simp only [List.mem_append, List.mem_singleton, not_or] at ha
    obtain ⟨h2, h3⟩ := ih ha.1
    have same : ∀ {io : Transport.State}, io.accepted = t.client.io.accepted →
        ∀ m ∈ io.accepted, ∃ x ∈ t.client.asked, m = Message.request x.1 := by
      intro io h m hm
      exact h3 m (h ▸ hm)
    cases hs with
    | @ask d id q r _ _ =>
      refine ⟨?_, fun m hm => ?_⟩
      · intro x hx
        rcases List.mem_append.1 hx with hx | hx
        · obtain ⟨y, hy, hy1⟩ := h2 x hx
          exact ⟨y, List.mem_append_left _ hy, hy1⟩
        · simp only [List.mem_singleton] at hx
          exact ⟨(r, d), by simp, hx.symm⟩
      · obtain ⟨y, hy, hy1⟩ := h3 m hm
        exact ⟨y, List.mem_append_left _ hy, hy1⟩
    | send ho hs =>
      cases hs with
      | accept _ _ _ =>
        refine ⟨fun r hr => h2 r ?_, ?_⟩
        · rw [ho]
          rcases List.mem_append.1 hr with hr | hr
          · exact List.mem_append_left _ hr
          · exact List.mem_append_right _ (List.mem_cons_of_mem _ hr)
        · intro m hm
          rcases List.mem_append.1 hm with hm | hm
          · exact h3 m hm
          · simp only [List.mem_singleton] at hm
            subst hm
            obtain ⟨x, hx, hx1⟩ := h2 _ (ho ▸ List.mem_append_right _ (List.mem_cons_self ..))
            exact ⟨x, hx, by rw [hx1]⟩
    | say _ _ => exact absurd rfl ha.2
    | recv hs => cases hs with | deliver _ _ _ => exact ⟨h2, h3⟩
    | @handle a b m _ => cases m <;> exact ⟨h2, h3⟩
    | thread hs hk => exact ⟨h2, same (thread_same hs (by rw [hk]; simp)).1⟩
    | fails hs => exact ⟨h2, same (thread_same hs (by simp [Pool.kindOf])).1⟩
    | toClient _ _ hs => exact ⟨h2, same (thread_same hs (by simp [Pool.kindOf])).1⟩
    | cutClient hs => exact ⟨h2, same (thread_same hs (by simp [Pool.kindOf])).1⟩
    | toServer _ _ _ => exact ⟨h2, h3⟩
    | cutServer _ => exact ⟨h2, h3⟩
    | server _ _ => exact ⟨h2, h3⟩

omit [LawfulExt] [FloatText] [Dbg] in
theorem asking_append [Ext] [FloatText] [Dbg] {u v w : Asking.World α} {as bs : List Asking.Ev}
    (h1 : Asking.Steps checked kc ks u as v) (h2 : Asking.Steps checked kc ks v bs w) :
    Asking.Steps checked kc ks u (as ++ bs) w := by
  induction h2 with
  | nil => simpa using h1
  | snoc _ h4 ih => rw [← List.append_assoc]; exact .snoc ih h4

end

/-! ### Concrete cases -/

section
attribute [local instance] Ext.sample FloatText.sample Dbg.sample

/-- Two requests: one with params, one without. -/
def sampleAsked : List (Request × String) :=
  [(.buildTargetSources (.i32 0) ⟨[]⟩, "sources"), (.workspaceReload (.i32 1), "reload")]

theorem ready_start (kc ks : Kind) : Spec.Ready kc ks ({} : Asking.Client String) {} :=
  ⟨.start, rfl, rfl, rfl, rfl, by simp, fun _ => rfl, rfl, rfl, rfl, rfl⟩

theorem up_start (kc ks : Kind) : Spec.Up kc ks {} {} :=
  ⟨rfl, rfl, by cases kc <;> simp [writeError], by cases ks <;> simp [writeError], rfl, rfl, by simp⟩

theorem sampleAsked_start (checked : Bool) (kc ks : Kind) (n : Nat) : ∃ w : Asking.World String,
    Asking.Steps checked kc ks ⟨{}, Pool.start {} n⟩ [.ask, .ask] w ∧ w.client.asked = sampleAsked := by
  obtain ⟨q, hq⟩ : ∃ q, (Outgoing.new : Outgoing String).register checked "sources" = some (.i32 0, q) ∧
      ∃ q', q.register checked "reload" = some (.i32 1, q') := by
    cases checked <;> exact ⟨_, rfl, _, rfl⟩
  obtain ⟨h1, q', h2⟩ := hq
  have s1 := Asking.Steps.snoc (.nil _) (Asking.Step.ask (checked := checked) (kc := kc) (ks := ks)
    (w := ⟨{}, Pool.start {} n⟩) (r := .buildTargetSources (.i32 0) ⟨[]⟩) h1 rfl)
  exact ⟨_, .snoc s1 (.ask (r := .workspaceReload (.i32 1)) h2 rfl), rfl⟩

set_option maxRecDepth 5000 in
theorem sampleAsked_sayable : ∀ x ∈ sampleAsked, Spec.Sayable (.request x.1) := by
  intro x hx
  simp only [sampleAsked, List.mem_cons, List.not_mem_nil, or_false] at hx
  rcases hx with rfl | rfl
  · exact ⟨.inl trivial, by decide, by repeat' constructor, by decide⟩
  · exact ⟨.inr ⟨_, rfl, _, .inr (.inr (.inl rfl))⟩, by decide, by repeat' constructor, by decide⟩

/-- Beside C118_settles, C118_rest: the client asks twice; when nothing more can happen, it has handled the answer to the
first request with the data registered for it, and the data of the second, to which there is no answer, is pending. -/
example (checked : Bool) (kc ks : Kind) : ∃ as w m, Asking.Steps checked kc ks ⟨{}, Pool.start {} 3⟩ as w ∧
    Asking.Quiet checked kc ks w ∧ Spec.IsReply (.buildTargetSources (.i32 0) ⟨[]⟩) m ∧
    w.client.handled = [(m, some "sources")] ∧
    w.client.queue.pending (.i32 0) = none ∧ w.client.queue.pending (.i32 1) = some "reload" := by
  obtain ⟨v, h1, h2⟩ := sampleAsked_start checked kc ks 3
  obtain ⟨bs, w, h3, h4, h5⟩ := C118_settles checked kc ks v
  have h6 := asking_append h1 h3
  have hno : ∀ a, a ≠ .ask → a ≠ .move → a ∉ [Asking.Ev.ask, .ask] ++ bs := by
    intro a ha hm h
    rcases List.mem_append.1 h with h | h
    · simp at h; exact ha h
    · exact hm (h5 a h)
  have h7 : w.client.asked = sampleAsked := (move_asked h3 h5).trans h2
  have h8 := (only_asked h6 (hno _ (by simp) (by simp)) rfl rfl).2
  rw [h7] at h8
  obtain ⟨_, _, xs, rest, ⟨m1, m2, m3, m4⟩, m5⟩ := C118_rest (ready_start kc ks) (up_start kc ks) (by decide) h6
    (hno _ (by simp) (by simp)) (hno _ (by simp) (by simp)) h4 (.inr (by rw [h7]; decide))
    (by
      intro m hm
      obtain ⟨x, hx, rfl⟩ := h8 m hm
      exact sampleAsked_sayable x hx)
    (by
      intro hm
      obtain ⟨x, _, hx⟩ := h8 _ hm
      cases hx)
  rw [h7] at m1
  have b0 : ¬ Spec.Bare (.buildTargetSources (.i32 0) ⟨[]⟩) := by simp [Spec.Bare]
  have b1 : Spec.Bare (.workspaceReload (.i32 1)) := ⟨_, .inr (.inr (.inl rfl))⟩
  -- which is which
  have k0 := m1.mem_iff.2 (show (Request.buildTargetSources (.i32 0) ⟨[]⟩, "sources") ∈ sampleAsked by simp [sampleAsked])
  have k1 := m1.mem_iff.2 (show (Request.workspaceReload (.i32 1), "reload") ∈ sampleAsked by simp [sampleAsked])
  have hl := m1.length_eq
  simp only [List.length_append, List.length_map, sampleAsked, List.length_cons, List.length_nil] at hl
  rcases List.mem_append.1 k0 with j0 | j0
  · rcases List.mem_append.1 k1 with j1 | j1
    · obtain ⟨x, hx, hx1⟩ := List.mem_map.1 j1
      have hx2 := (m3 x hx).2
      rw [(Prod.mk.inj hx1).1] at hx2
      exact absurd b1 hx2
    · clear k0 k1
      have l0 : 0 < xs.length := by cases xs with | nil => cases j0 | cons _ _ => simp
      have l1 : 0 < rest.length := List.length_pos_of_mem j1
      obtain ⟨x, rfl⟩ := List.length_eq_one_iff.1 (show xs.length = 1 by omega)
      obtain ⟨y, rfl⟩ := List.length_eq_one_iff.1 (show rest.length = 1 by omega)
      simp only [List.map_cons, List.map_nil, List.mem_singleton, Prod.mk.injEq] at j0 j1
      have hx := (m3 x (by simp)).1
      rw [← j0.1] at hx
      refine ⟨_, w, x.2.2, h6, h4, hx, ?_, ?_, ?_⟩
      · rw [← m2]; simp [← j0.2]
      · rw [m4]; simp [← j1, Request.id]
      · rw [m4]; simp [← j1, Request.id]
  · exact absurd (m5 _ j0) b0

/-- Beside C118_matched: at any time, whatever goes wrong. -/
example (kc ks : Kind) {as : List Asking.Ev} {w : Asking.World String}
    (h : Asking.Steps true kc ks ⟨{}, Pool.start {} 2⟩ as w) (hs : Asking.Ev.say ∉ as)
    (ha : w.client.asked = sampleAsked) (hh : w.client.handled ≠ []) :
    ∃ m, w.client.handled = [(m, some "sources")] ∧ w.client.queue.pending (.i32 0) = none := by
  have h8 := (only_asked h hs rfl rfl).2
  rw [ha] at h8
  obtain ⟨xs, rest, m1, m2, m3, m4⟩ := C118_matched (ready_start kc ks) h (.inl rfl) (by
      intro m hm
      obtain ⟨x, hx, rfl⟩ := h8 m hm
      exact sampleAsked_sayable x hx)
  rw [ha] at m1
  have hd := (m1.map fun x => x.1.id).nodup_iff.2 (by decide)
  rw [List.map_append, List.nodup_append] at hd
  have b1 : Spec.Bare (.workspaceReload (.i32 1)) := ⟨_, .inr (.inr (.inl rfl))⟩
  have all : ∀ x ∈ xs, x.1 = .buildTargetSources (.i32 0) ⟨[]⟩ ∧ x.2.1 = "sources" := by
    intro x hx
    have := m1.mem_iff.1 (List.mem_append_left _ (List.mem_map.2 ⟨x, hx, rfl⟩))
    simp only [sampleAsked, List.mem_cons, Prod.mk.injEq, List.not_mem_nil, or_false] at this
    rcases this with h1 | h1
    · exact h1
    · exact absurd (h1.1 ▸ b1) (m3 x hx).2
  cases xs with
  | nil => rw [← m2] at hh; exact absurd rfl hh
  | cons x xs =>
    have hx := all x (by simp)
    cases xs with
    | cons y ys =>
      have hy := all y (by simp)
      have := hd.1
      simp [hx.1, hy.1] at this
    | nil =>
      refine ⟨x.2.2, by rw [← m2]; simp [hx.2], ?_⟩
      rw [m4, List.find?_eq_none.2, Option.map_none]
      intro y hy he
      refine hd.2.2 x.1.id (by simp) y.1.id (List.mem_map.2 ⟨y, hy, rfl⟩) ?_
      rw [hx.1]
      simp only [decide_eq_true_eq] at he
      rw [he]; rfl

/-- Beside C118_terminates: a client that has asked. -/
example (checked : Bool) (kc ks : Kind) (n : Nat) : ∃ w : Asking.World String, w.client.outbox ≠ [] ∧
    Acc (fun u v => ∃ a, a ≠ .ask ∧ a ≠ .say ∧ Asking.Step checked kc ks v a u) w :=
  ⟨⟨{ outbox := [.shutdown (.i32 0)] }, Pool.start {} n⟩, by simp, (C118_terminates checked kc ks).apply _⟩

end
end Bsp
