/-
C120: a client with `Outgoing` and a server with `Incoming`.
-/
import Verif.Deal
import Verif.Props.Asking
import Verif.Props.Serving

namespace Bsp
open Conn Transport Queue

section
variable [LawfulExt] [FloatText] {α β : Type} {checked : Bool} {kc ks : Kind} {wish : Message → Option RequestId}

/-! ### Specification -/

omit [FloatText] in
/-- What the client may hear as the answer to a request it has asked, of which it is told here what it has `said` and which
jobs the server has finished: the outcome of the job of that request, as received by the server, for which the queue has
returned the data registered with it; or that it has been cancelled, as the client has wished. -/
def Spec.Outcome (wish : Message → Option RequestId) (said : List Message)
    (finished : List (Request × β × Response × Option β)) (r : Request) (m : Message) : Prop :=
  ∃ y, m = Spec.heard (.response y) ∧ y.id = r.id ∧
    ((∃ r' d, Spec.heard (.request r) = .request r' ∧ (r', d, y, some d) ∈ finished) ∨
     (y = Spec.canceled r.id ∧ ∃ q ∈ said, (∀ r, Spec.heard q ≠ .request r) ∧ wish (Spec.heard q) = some r.id))

omit [FloatText] in
/-- Every message handled is the answer to one of the requests, each to a different one, and has come with the data
registered for that request; pending are the data of the others. -/
def Spec.MatchedBy (answer : Request → Message → Prop) (xs : List (Request × α × Message)) (rest asked : List (Request × α))
    (handled : List (Message × Option α)) (pending : RequestId → Option α) : Prop :=
  (xs.map (fun x => (x.1, x.2.1)) ++ rest).Perm asked ∧ xs.map (fun x => (x.2.2, some x.2.1)) = handled ∧
  (∀ x ∈ xs, answer x.1 x.2.2 ∧ ¬ Spec.Bare x.1) ∧
  ∀ id, pending id = (rest.find? fun x => x.1.id = id).map Prod.snd

/-! ### The invariant -/

/-- What holds of the client and the server, whatever is sent. -/
structure DealInv (checked : Bool) (kc ks : Kind) (wish : Message → Option RequestId)
    (c0 : Asking.Client α) (io0 : Transport.State) (as : List Asking.Ev) (w : Deal.World α β) : Prop where
  pair : PairReachable kc ks ⟨w.client.io, w.server.io⟩
  serv : ∃ bs, Serving.Steps ks wish { io := io0 } bs w.server ∧ (Pool.Act.writeFails ∈ bs → Asking.Ev.writeFails ∈ as)
  said : ∃ said, w.client.io.accepted = c0.io.accepted ++ said ∧
    (Spec.requests said ++ w.client.outbox).Perm (w.client.asked.map Prod.fst)
  got : ∃ got, w.client.io.delivered = c0.io.delivered ++ got ∧
    (w.client.handled.map Prod.fst ++ w.client.inbox).Perm got
  ids : ∀ k (h : k < w.client.asked.length), w.client.asked[k].1.id = .i32 (c0.queue.next + Int32.ofNat k)
  next : w.client.queue.next = c0.queue.next + Int32.ofNat w.client.asked.length
  few : checked = true → c0.queue.next.toInt + w.client.asked.length ≤ 2 ^ 31 - 1

theorem serving_pair {a : Transport.State} {s t : Serving.State β} {act : Pool.Act} (h : PairReachable kc ks ⟨a, s.io⟩)
    (hs : Serving.Step ks wish s act t) (hn : act ≠ .peer) : PairReachable kc ks ⟨a, t.io⟩ := by
  cases hs with
  | io h1 h2 =>
    refine pair_right h h1 ?_
    rintro bs rfl
    simp [Pool.kindOf] at h2
    exact hn h2.symm
  | recv h1 => exact pair_right h h1 (by simp)
  | @handle a b m d hi =>
    have : (s.handle wish m d).io = s.io := by
      cases m <;> simp only [Serving.State.handle, Serving.State.begin] <;> cases wish _ <;> rfl
    simpa only [this] using h
  | finish _ _ => exact h
  | send _ h1 => exact pair_right h h1 (by simp)

theorem dealInv {c0 : Asking.Client α} {io0 : Transport.State} (hr : Spec.Ready kc ks c0 io0)
    {as : List Asking.Ev} {w : Deal.World α β} (h : Deal.Steps checked kc ks wish ⟨c0, { io := io0 }⟩ as w) :
    DealInv checked kc ks wish c0 io0 as w := by
  induction h with
  | nil =>
    refine ⟨hr.pair, ⟨[], .nil _, by simp⟩, ⟨[], by simp, ?_⟩, ⟨[], by simp, ?_⟩, ?_, ?_, ?_⟩
    · simp [hr.outbox, hr.asked, Spec.requests]
    · simp [hr.handled, hr.inbox]
    · simp [hr.asked]
    · simp [hr.asked]
    · intro _
      have := c0.queue.next.toInt_lt
      simp only [hr.asked, List.length_nil]
      omega
  | @snoc as v a u _ hs ih =>
    obtain ⟨h1, ⟨bs, h2, h2'⟩, ⟨said, h3, h3'⟩, ⟨got, h4, h4'⟩, h5, h6, h7⟩ := ih
    have hm : Pool.Act.writeFails ∈ bs → Asking.Ev.writeFails ∈ as ++ [a] := fun h => List.mem_append_left _ (h2' h)
    cases hs with
    | @ask d id q r hq hi =>
      obtain ⟨q1, q2, q3⟩ : id = .i32 v.client.queue.next ∧ q.next = v.client.queue.next + 1 ∧
          (checked = true → v.client.queue.next ≠ Int32.maxValue) := by
        simp only [Outgoing.register] at hq
        split at hq
        · cases hq
        · rename_i hne; cases hq; exact ⟨rfl, rfl, fun h1 h2 => hne ⟨h1, h2⟩⟩
      refine ⟨h1, ⟨bs, h2, hm⟩, ⟨said, h3, ?_⟩, ⟨got, h4, h4'⟩, ?_, ?_, ?_⟩
      · simp only [List.map_append, ← List.append_assoc]
        exact h3'.append_right _
      · intro k hk
        simp only [List.length_append, List.length_singleton] at hk
        rcases Nat.lt_or_ge k v.client.asked.length with h | h
        · rw [List.getElem_append_left h]; exact h5 k h
        · have hk : k = v.client.asked.length := by omega
          subst hk
          simp only [List.getElem_append_right (Nat.le_refl _), Nat.sub_self, List.getElem_cons_zero]
          rw [hi, q1, h6]
      · simp only [q2, h6, List.length_append, List.length_singleton, Int32.ofNat_add]
        exact Int32.add_assoc _ _ _
      · intro hc
        have := h7 hc
        have hne := q3 hc
        have e := int32_far _ _ this
        rw [← h6] at e
        have : v.client.queue.next.toInt ≠ 2 ^ 31 - 1 := fun h => hne (Int32.toInt_inj.1 h)
        simp only [List.length_append, List.length_singleton]
        omega
    | @send a b r io ho hs =>
      cases hs with
      | accept _ hw ht =>
        refine ⟨pair_left h1 (.accept _ _ hw ht) (by simp), ⟨bs, h2, hm⟩, ⟨said ++ [.request r], ?_, ?_⟩, ⟨got, h4, h4'⟩,
          h5, h6, h7⟩
        · simp [h3]
        · rw [ho] at h3'
          refine List.Perm.trans ?_ h3'
          rw [reqs_append]
          simp only [Spec.requests, List.append_assoc, List.singleton_append]
          exact List.Perm.append_left _ List.perm_middle.symm
    | @say m io hn hs =>
      cases hs with
      | accept _ hw ht =>
        refine ⟨pair_left h1 (.accept _ _ hw ht) (by simp), ⟨bs, h2, hm⟩, ⟨said ++ [m], ?_, ?_⟩, ⟨got, h4, h4'⟩, h5, h6, h7⟩
        · simp [h3]
        · rw [reqs_append]
          cases m with
          | request r => exact absurd rfl (hn r)
          | _ => simpa [Spec.requests] using h3'
    | @recv m io hs =>
      cases hs with
      | deliver _ h8 h9 =>
        refine ⟨pair_left h1 (.deliver _ _ h8 h9) (by simp), ⟨bs, h2, hm⟩, ⟨said, h3, h3'⟩, ⟨got ++ [m], ?_, ?_⟩, h5, h6, h7⟩
        · simp [h4]
        · rw [← List.append_assoc]
          exact h4'.append_right _
    | @handle a b m hi =>
      have key : (v.client.handle m).io = v.client.io ∧ (v.client.handle m).asked = v.client.asked ∧
          (v.client.handle m).outbox = v.client.outbox ∧ (v.client.handle m).queue.next = v.client.queue.next ∧
          ∃ x, (v.client.handle m).handled = v.client.handled ++ [(m, x)] := by
        cases m <;> exact ⟨rfl, rfl, rfl, rfl, _, rfl⟩
      obtain ⟨k1, k2, k3, k4, x, k5⟩ := key
      refine ⟨by simpa only [k1] using h1, ⟨bs, h2, hm⟩, ⟨said, by simpa only [k1] using h3, by simpa only [k2, k3] using h3'⟩,
        ⟨got, by simpa only [k1] using h4, ?_⟩, by simpa only [k2] using h5, by simpa only [k2, k4] using h6,
        by simpa only [k2] using h7⟩
      rw [hi] at h4'
      refine List.Perm.trans ?_ h4'
      simp only [k5, List.map_append, List.map_cons, List.map_nil, List.append_assoc, List.singleton_append]
      exact List.Perm.append_left _ List.perm_middle.symm
    | @thread act io hs hk =>
      obtain ⟨e1, e2⟩ := thread_same hs (by rw [hk]; simp)
      exact ⟨pair_left h1 hs (thread_no_arrive hk), ⟨bs, h2, hm⟩, ⟨said, e1.trans h3, h3'⟩, ⟨got, e2.trans h4, h4'⟩, h5, h6, h7⟩
    | @fails io hs =>
      obtain ⟨e1, e2⟩ := thread_same hs (by simp [Pool.kindOf])
      exact ⟨pair_left h1 hs (by simp), ⟨bs, h2, hm⟩, ⟨said, e1.trans h3, h3'⟩, ⟨got, e2.trans h4, h4'⟩, h5, h6, h7⟩
    | @toClient bs' io hb hp hs =>
      obtain ⟨e1, e2⟩ := thread_same hs (by simp [Pool.kindOf])
      exact ⟨.step h1 (.toLeft hp hs), ⟨bs, h2, hm⟩, ⟨said, e1.trans h3, h3'⟩, ⟨got, e2.trans h4, h4'⟩, h5, h6, h7⟩
    | @cutClient b io hs =>
      obtain ⟨e1, e2⟩ := thread_same hs (by simp [Pool.kindOf])
      exact ⟨pair_left h1 hs (by simp), ⟨bs, h2, hm⟩, ⟨said, e1.trans h3, h3'⟩, ⟨got, e2.trans h4, h4'⟩, h5, h6, h7⟩
    | @toServer bs' io hb hp hs =>
      exact ⟨.step h1 (.toRight hp hs), ⟨_, .snoc h2 (.io hs rfl), by simpa using hm⟩, ⟨said, h3, h3'⟩, ⟨got, h4, h4'⟩, h5, h6, h7⟩
    | @cutServer b io hs =>
      exact ⟨pair_right h1 hs (by simp), ⟨_, .snoc h2 (.io hs rfl), by simpa using hm⟩, ⟨said, h3, h3'⟩, ⟨got, h4, h4'⟩, h5, h6, h7⟩
    | @server a p hs hn =>
      refine ⟨serving_pair h1 hs hn, ⟨_, .snoc h2 hs, ?_⟩, ⟨said, h3, h3'⟩, ⟨got, h4, h4'⟩, h5, h6, h7⟩
      intro h
      rcases List.mem_append.1 h with h | h
      · exact hm h
      · simp only [List.mem_singleton] at h
        subst h
        simp [Asking.evOf]


theorem deal_nodup {c0 : Asking.Client α} {io0 : Transport.State} {as : List Asking.Ev} {w : Deal.World α β}
    (hi : DealInv checked kc ks wish c0 io0 as w) (hn : checked = true ∨ w.client.asked.length ≤ 2 ^ 32) :
    (w.client.asked.map fun x => x.1.id).Nodup := by
  have hlen : w.client.asked.length ≤ 2 ^ 32 := by
    rcases hn with h | h
    · have := hi.few h
      have := c0.queue.next.le_toInt
      omega
    · exact h
  rw [List.Nodup, List.pairwise_iff_getElem]
  intro i j h1 h2 hij he
  simp only [List.length_map] at h1 h2
  simp only [List.getElem_map] at he
  rw [hi.ids i h1, hi.ids j h2, RequestId.i32.injEq] at he
  have := int32_apart _ i j (by omega) (by omega) he
  omega

/-! ### Every response has its request -/

theorem deal_facts {c0 : Asking.Client α} {io0 : Transport.State} {as : List Asking.Ev} {w : Deal.World α β}
    (hr : Spec.Ready kc ks c0 io0) (hi : DealInv checked kc ks wish c0 io0 as w)
    (hn : checked = true ∨ w.client.asked.length ≤ 2 ^ 32)
    (hm : ∀ m ∈ w.client.io.accepted, Spec.Sayable m) (hsay : ∀ m ∈ w.server.io.accepted, Spec.Sayable m) :
    ((w.client.handled.map Prod.fst ++ w.client.inbox).map rid).Nodup ∧
    (∀ m ∈ w.client.handled.map Prod.fst ++ w.client.inbox, ∃ x ∈ w.client.asked,
      Spec.Outcome wish w.client.io.accepted w.server.finished x.1 m ∧ ¬ Spec.Bare x.1) ∧
    ((Spec.requests (w.server.io.delivered.drop io0.delivered.length)).map Request.id).Nodup := by
  have hnd := deal_nodup hi hn
  obtain ⟨bs, hp, _⟩ := hi.serv
  obtain ⟨said, hs1, hs2⟩ := hi.said
  obtain ⟨got, hg1, hg2⟩ := hi.got
  have hio := (pair_inv hr.pair).2.1
  obtain ⟨sent, T⟩ := serveInv hio hr.rx hr.tx hp
  obtain ⟨ds, hd1, hd2⟩ := T.got
  -- what the server has received
  have hds : ds <+: said.map Spec.heard := by
    have h1 := C56_heard hi.pair hm
    simp only [hd1, hs1, List.map_append] at h1
    obtain ⟨t, ht⟩ := h1
    rw [List.append_assoc] at ht
    exact ⟨t, List.append_inj_right ht (by simpa using hr.said)⟩
  have hreqs : Spec.requests ds <+: Spec.requests (said.map Spec.heard) := by
    obtain ⟨t, ht⟩ := hds
    rw [← ht, reqs_append]
    exact List.prefix_append _ _
  have h1 : ((Spec.requests said).map Request.id).Nodup := by
    have := (hs2.map Request.id).nodup_iff.2 (by simpa [Function.comp_def] using hnd)
    rw [List.map_append] at this
    exact (List.nodup_append.1 this).1
  have h2 : ((Spec.requests ds).map Request.id).Nodup :=
    h1.sublist ((hreqs.sublist.map Request.id).trans (requests_heard_ids said))
  have hask : ∀ r ∈ Spec.requests ds, ∃ x ∈ w.client.asked, Spec.heard (.request x.1) = .request r := by
    intro r h
    obtain ⟨q, h2, h3⟩ := mem_requests_heard (hreqs.subset h)
    obtain ⟨x, h1, h2⟩ := List.mem_map.1 (hs2.mem_iff.1 (List.mem_append_left _ h2))
    exact ⟨x, h1, h2 ▸ h3⟩
  have hsub : ∀ m ∈ w.server.handled, m ∈ ds := fun m h => hd2.mem_iff.1 (List.mem_append_left _ h)
  have h2' : ((Spec.requests w.server.handled).map Request.id).Nodup := by
    have := ((requests_perm hd2).map Request.id).nodup_iff.2 h2
    rw [reqs_append, List.map_append] at this
    exact (List.nodup_append.1 this).1
  -- what it has sent
  have hcount : ∀ id, Spec.replies id sent ≤ Spec.asks id w.server.handled := by
    intro id
    have := T.count id
    rw [replies_append] at this
    omega
  have h3 : (sent.map fun x => x.id).Nodup :=
    List.nodup_iff_count.2 fun id => Nat.le_trans (hcount id) (List.nodup_iff_count.1 h2' id)
  have hsent : ∀ y ∈ sent, ∃ x ∈ w.client.asked,
      Spec.Outcome wish w.client.io.accepted w.server.finished x.1 (Spec.heard (.response y)) ∧ ¬ Spec.Bare x.1 := by
    intro y hy
    have h4 : ∃ r ∈ Spec.requests ds, r.id = y.id := by
      have h5 : 0 < Spec.asks y.id w.server.handled :=
        Nat.lt_of_lt_of_le (List.count_pos_iff.2 (List.mem_map.2 ⟨y, hy, rfl⟩)) (hcount y.id)
      obtain ⟨r, h6, h7⟩ := List.mem_map.1 (List.count_pos_iff.1 h5)
      exact ⟨r, mem_requests.2 (hsub _ (mem_requests.1 h6)), h7⟩
    obtain ⟨r, h5, h6⟩ := h4
    obtain ⟨x, h7, h8⟩ := hask r h5
    obtain ⟨h9, h10, _⟩ := heard_asked h8
    refine ⟨x, h7, ⟨y, rfl, by rw [← h6, h9], ?_⟩, h10⟩
    rcases T.source y (List.mem_append_left _ hy) with ⟨r', d, d', k1, k2, k3⟩ | ⟨k1, m, k2, k3, k4⟩
    · left
      have e : r' = r := nodup_key h2 (mem_requests.2 (hsub _ k2)) h5 (by rw [← k3, h6])
      subst e
      have := T.data h2' _ _ _ _ k1
      subst this
      exact ⟨r', d', h8, k1⟩
    · right
      rw [← h9, h6]
      refine ⟨k1, ?_⟩
      obtain ⟨q, h11, h12⟩ := List.mem_map.1 (hds.subset (hsub _ k2))
      exact ⟨q, by rw [hs1]; exact List.mem_append_right _ h11, by rw [h12]; exact k3, by rw [h12]; exact k4⟩
  -- what the client has received
  have hgot : got <+: (sent.map Message.response).map Spec.heard := by
    have h1 := C56_heard (pair_swap hi.pair) hsay
    simp only [hg1, T.accepted, List.map_append] at h1
    obtain ⟨t, ht⟩ := h1
    rw [List.append_assoc] at ht
    exact ⟨t, List.append_inj_right ht (by simpa using hr.heard)⟩
  refine ⟨?_, ?_, ?_⟩
  · refine (hg2.map rid).nodup_iff.2 ?_
    refine List.Nodup.sublist (hgot.sublist.map rid) ?_
    have e : ((sent.map Message.response).map Spec.heard).map rid = (sent.map fun x => x.id).map some := by
      simp only [List.map_map]
      rfl
    rw [e]
    exact List.pairwise_map.2 (h3.imp (fun h e => h (by simpa using e)))
  · intro m h
    have h1 := hgot.subset (hg2.mem_iff.1 h)
    obtain ⟨m', h2, rfl⟩ := List.mem_map.1 h1
    obtain ⟨y, h3, rfl⟩ := List.mem_map.1 h2
    exact hsent y h3
  · rw [hd1, List.drop_left' rfl]
    exact h2

omit [FloatText] in
theorem rid_outcome {said : List Message} {fs : List (Request × β × Response × Option β)} {r : Request} {m : Message}
    (h : Spec.Outcome wish said fs r m) : rid m = some r.id := by
  obtain ⟨y, rfl, h1, _⟩ := h
  rw [← h1]
  rfl

theorem deal_mono {v u : Deal.World α β} {a : Asking.Ev} (h : Deal.Step checked kc ks wish v a u) :
    v.client.asked.length ≤ u.client.asked.length ∧ v.client.io.accepted <+: u.client.io.accepted := by
  cases h with
  | ask _ _ => exact ⟨by simp, List.prefix_rfl⟩
  | send _ hs => cases hs with | accept _ _ _ => exact ⟨Nat.le_refl _, List.prefix_append _ _⟩
  | say _ hs => cases hs with | accept _ _ _ => exact ⟨Nat.le_refl _, List.prefix_append _ _⟩
  | recv hs => cases hs with | deliver _ _ _ => exact ⟨Nat.le_refl _, List.prefix_rfl⟩
  | @handle a b m _ => cases m <;> exact ⟨Nat.le_refl _, List.prefix_rfl⟩
  | thread hs hk => exact ⟨Nat.le_refl _, (thread_same hs (by rw [hk]; simp)).1 ▸ List.prefix_rfl⟩
  | fails hs => exact ⟨Nat.le_refl _, (thread_same hs (by simp [Pool.kindOf])).1 ▸ List.prefix_rfl⟩
  | toClient _ _ hs => exact ⟨Nat.le_refl _, (thread_same hs (by simp [Pool.kindOf])).1 ▸ List.prefix_rfl⟩
  | cutClient hs => exact ⟨Nat.le_refl _, (thread_same hs (by simp [Pool.kindOf])).1 ▸ List.prefix_rfl⟩
  | toServer _ _ _ => exact ⟨Nat.le_refl _, List.prefix_rfl⟩
  | cutServer _ => exact ⟨Nat.le_refl _, List.prefix_rfl⟩
  | server _ _ => exact ⟨Nat.le_refl _, List.prefix_rfl⟩

theorem deal_mono_server {v u : Deal.World α β} {a : Asking.Ev} (h : Deal.Step checked kc ks wish v a u) :
    v.server.io.accepted <+: u.server.io.accepted := by
  cases h with
  | toServer _ _ hs => exact (thread_same hs (by simp [Pool.kindOf])).1 ▸ List.prefix_rfl
  | cutServer hs => exact (thread_same hs (by simp [Pool.kindOf])).1 ▸ List.prefix_rfl
  | @server a s hs hn =>
    generalize v.server = t at hs ⊢
    cases hs with
    | io h1 h2 => exact (thread_same h1 (by rw [h2]; simp)).1 ▸ List.prefix_rfl
    | recv h1 => cases h1 with | deliver _ _ _ => exact List.prefix_rfl
    | @handle a b m d hi =>
      have : (t.handle wish m d).io = t.io := by
        cases m <;> simp only [Serving.State.handle, Serving.State.begin] <;> cases wish _ <;> rfl
      simp only [this]
      exact List.prefix_rfl
    | finish _ _ => exact List.prefix_rfl
    | send _ h1 => cases h1 with | accept _ _ _ => exact List.prefix_append _ _
  | _ => exact List.prefix_rfl

theorem deal_matched {c0 : Asking.Client α} {io0 : Transport.State} (hr : Spec.Ready kc ks c0 io0)
    {as : List Asking.Ev} {w : Deal.World α β} (h : Deal.Steps checked kc ks wish ⟨c0, { io := io0 }⟩ as w)
    (hn : checked = true ∨ w.client.asked.length ≤ 2 ^ 32) (hm : ∀ m ∈ w.client.io.accepted, Spec.Sayable m)
    (hsay : ∀ m ∈ w.server.io.accepted, Spec.Sayable m) :
    ∃ xs rest, Spec.MatchedBy (fun r m => rid m = some r.id) xs rest w.client.asked w.client.handled w.client.queue.pending := by
  induction h with
  | nil => exact ⟨[], [], by simp [hr.asked], by simp [hr.handled], by simp, by simp [hr.pending]⟩
  | @snoc as v a u hv hs ih =>
    obtain ⟨k1, k2⟩ := deal_mono hs
    have hn' : checked = true ∨ v.client.asked.length ≤ 2 ^ 32 := hn.imp_right (fun h => Nat.le_trans k1 h)
    have hm' : ∀ m ∈ v.client.io.accepted, Spec.Sayable m := fun m h => hm m (k2.subset h)
    have hsay' : ∀ m ∈ v.server.io.accepted, Spec.Sayable m := fun m h => hsay m ((deal_mono_server hs).subset h)
    obtain ⟨xs, rest, h1, h2, h3, h4⟩ := ih hn' hm' hsay'
    have hinv := dealInv hr hv
    have hinv' := dealInv hr (.snoc hv hs)
    have same : u.client.asked = v.client.asked → u.client.handled = v.client.handled →
        u.client.queue = v.client.queue →
        ∃ xs rest, Spec.MatchedBy (fun r m => rid m = some r.id) xs rest u.client.asked u.client.handled u.client.queue.pending := by
      intro e1 e2 e3
      rw [e1, e2, e3]
      exact ⟨xs, rest, h1, h2, h3, h4⟩
    cases hs with
    | @ask d id q r hq hi =>
      have hd := deal_nodup hinv' hn
      obtain ⟨q1, q2⟩ : id = .i32 v.client.queue.next ∧
          ∀ i, q.pending i = if i = id then some d else v.client.queue.pending i := by
        simp only [Outgoing.register] at hq
        split at hq
        · cases hq
        · cases hq; exact ⟨rfl, fun i => rfl⟩
      refine ⟨xs, rest ++ [(r, d)], ?_, h2, h3, ?_⟩
      · rw [← List.append_assoc]; exact h1.append_right _
      · intro i
        simp only [q2, h4, List.find?_append]
        by_cases hii : i = id
        · rw [if_pos hii]
          have : rest.find? (fun x => x.1.id = i) = none := by
            rw [List.find?_eq_none]
            intro x hx he
            simp only [decide_eq_true_eq] at he
            have h5 : x ∈ v.client.asked := h1.mem_iff.1 (List.mem_append_right _ hx)
            simp only [List.map_append, List.map_cons, List.map_nil, List.nodup_append] at hd
            exact hd.2.2 x.1.id (List.mem_map.2 ⟨x, h5, rfl⟩) r.id (by simp) (by rw [he, hii, hi])
          rw [this]
          simp [hi, hii]
        · rw [if_neg hii]
          have : r.id ≠ i := fun e => hii (by rw [← e, hi])
          cases rest.find? (fun x => x.1.id = i) <;> simp [this]
    | @handle a b m hi =>
      obtain ⟨f1, f2, _⟩ := deal_facts hr hinv hn' hm' hsay'
      have hd := deal_nodup hinv hn'
      obtain ⟨x, hx, hrep, hbare⟩ := f2 m (List.mem_append_right _ (by rw [hi]; simp))
      have hid := rid_outcome hrep
      obtain ⟨y, rfl, hy⟩ : ∃ y, m = .response y ∧ y.id = x.1.id := by
        obtain ⟨y, e, hy, _⟩ := hrep
        exact ⟨_, e, hy⟩
      -- it has not been handled before
      have hnew : ∀ z ∈ xs, z.1.id ≠ x.1.id := by
        intro z hz he
        have h5 : z.2.2 ∈ v.client.handled.map Prod.fst := by
          rw [← h2]
          simp only [List.map_map]
          exact List.mem_map.2 ⟨z, hz, rfl⟩
        have h6 := (h3 z hz).1
        rw [List.map_append, List.nodup_append] at f1
        exact f1.2.2 (rid z.2.2) (List.mem_map.2 ⟨_, h5, rfl⟩) (rid (.response y))
          (List.mem_map.2 ⟨_, by rw [hi]; simp, rfl⟩) (by rw [h6, hid, he])
      have hmem : x ∈ rest := by
        rcases List.mem_append.1 (h1.mem_iff.2 hx) with h5 | h5
        · obtain ⟨z, hz, rfl⟩ := List.mem_map.1 h5
          exact absurd rfl (hnew z hz)
        · exact h5
      have hdr : (rest.map fun x => x.1.id).Nodup := by
        have := (h1.map fun x => x.1.id).nodup_iff.2 hd
        rw [List.map_append] at this
        exact (List.nodup_append.1 this).2.1
      have hpend : v.client.queue.pending y.id = some x.2 := by
        rw [h4, hy, find_nodup hdr hmem]
        rfl
      obtain ⟨r1, r2, rfl⟩ := List.append_of_mem hmem
      refine ⟨xs ++ [(x.1, x.2, .response y)], r1 ++ r2, ?_, ?_, ?_, ?_⟩
      · refine List.Perm.trans ?_ h1
        simp only [List.map_append, List.map_cons, List.map_nil, List.append_assoc, List.singleton_append]
        exact List.Perm.append_left _ List.perm_middle.symm
      · simp only [List.map_append, List.map_cons, List.map_nil, h2, Asking.Client.handle, Outgoing.complete,
          Table.remove, hpend]
      · intro z hz
        rcases List.mem_append.1 hz with hz | hz
        · exact h3 z hz
        · simp only [List.mem_singleton] at hz
          subst hz
          exact ⟨hid, hbare⟩
      · intro i
        simp only [Asking.Client.handle, Outgoing.complete, Table.remove]
        simp only [List.map_append, List.map_cons, List.nodup_append, List.nodup_cons, List.mem_map,
          List.mem_cons] at hdr
        by_cases hi : i = y.id
        · subst hi
          rw [if_pos rfl]
          have : (r1 ++ r2).find? (fun z => z.1.id = y.id) = none := by
            rw [List.find?_eq_none]
            intro z hz he
            simp only [decide_eq_true_eq] at he
            rw [hy] at he
            rcases List.mem_append.1 hz with hz | hz
            · exact hdr.2.2 _ ⟨z, hz, rfl⟩ _ (.inl rfl) he
            · exact hdr.2.1.1 ⟨z, hz, he⟩
          rw [this]; rfl
        · rw [if_neg hi, h4]
          have : x.1.id ≠ i := fun e => hi (by rw [← e, hy])
          simp [List.find?_append, this]
    | send _ hs => exact same rfl rfl rfl
    | say _ hs => exact same rfl rfl rfl
    | recv hs => exact same rfl rfl rfl
    | thread hs hk => exact same rfl rfl rfl
    | fails hs => exact same rfl rfl rfl
    | toClient _ _ hs => exact same rfl rfl rfl
    | cutClient hs => exact same rfl rfl rfl
    | toServer _ _ _ => exact same rfl rfl rfl
    | cutServer _ => exact same rfl rfl rfl
    | server _ _ => exact same rfl rfl rfl

/-- C120: a client numbers its requests with `Outgoing`, a server keeps account of them with `Incoming`, works on them in
any order, and cancels them if the client wishes.  Whatever the order of all steps, also if writes fail or the connection is
cut: every message that the client handles is the answer to one of the requests it has asked, each to a different one, and
its queue has returned the data registered for that very request; what is still pending are the data of the other requests.
An answer is the outcome of the job of that request, with which the server has got back the data it had registered, or says
that the request has been cancelled, as the client has wished.  Condition: additions are checked for overflow, or no more
than 2^32 requests have been made. -/
theorem C120_matched {c0 : Asking.Client α} {io0 : Transport.State} (hr : Spec.Ready kc ks c0 io0)
    {as : List Asking.Ev} {w : Deal.World α β} (h : Deal.Steps checked kc ks wish ⟨c0, { io := io0 }⟩ as w)
    (hn : checked = true ∨ w.client.asked.length ≤ 2 ^ 32) (hm : ∀ m ∈ w.client.io.accepted, Spec.Sayable m)
    (hsay : ∀ m ∈ w.server.io.accepted, Spec.Sayable m) :
    ∃ xs rest, Spec.MatchedBy (Spec.Outcome wish w.client.io.accepted w.server.finished) xs rest w.client.asked
      w.client.handled w.client.queue.pending := by
  obtain ⟨xs, rest, h1, h2, h3, h4⟩ := deal_matched hr h hn hm hsay
  have hi := dealInv hr h
  obtain ⟨_, f2, _⟩ := deal_facts hr hi hn hm hsay
  have hd := deal_nodup hi hn
  refine ⟨xs, rest, h1, h2, fun x hx => ⟨?_, (h3 x hx).2⟩, h4⟩
  obtain ⟨y, k1, k2, _⟩ := f2 x.2.2 (List.mem_append_left _ (by
    rw [← h2, List.map_map]
    exact List.mem_map.2 ⟨x, hx, rfl⟩))
  have e : y.1.id = x.1.id := by
    have := rid_outcome k2
    rw [(h3 x hx).1] at this
    exact (Option.some.inj this).symm
  have hx' : (x.1, x.2.1) ∈ w.client.asked :=
    h1.mem_iff.1 (List.mem_append_left _ (List.mem_map.2 ⟨x, hx, rfl⟩))
  have := nodup_key hd k1 hx' e
  rw [this] at k2
  exact k2

/-! ### When nothing more can happen -/

theorem serving_keeps {s t : Serving.State β} {a : Pool.Act} (h : Serving.Step ks wish s a t) (ha : a ≠ .peer) :
    t.io.arrived = s.io.arrived ∧ t.io.inEnd = s.io.inEnd := by
  cases h with
  | io hs hk =>
    cases hs <;> first | (exact ⟨rfl, rfl⟩) | (simp [Pool.kindOf] at hk; exact absurd hk.symm ha) | skip
    rename_i r _ _
    cases r <;> exact ⟨rfl, rfl⟩
  | recv hs => cases hs with | deliver _ _ _ => exact ⟨rfl, rfl⟩
  | @handle a b m d hi =>
    have : (s.handle wish m d).io = s.io := by
      cases m <;> simp only [Serving.State.handle, Serving.State.begin] <;> cases wish _ <;> rfl
    simp only [this, and_self]
  | finish _ _ => exact ⟨rfl, rfl⟩
  | send _ hs => cases hs with | accept _ _ _ => exact ⟨rfl, rfl⟩

/-- As long as nothing is cut and no write fails. -/
theorem deal_up {c0 : Asking.Client α} {io0 : Transport.State} (hu : Spec.Up kc ks c0.io io0)
    {as : List Asking.Ev} {w : Deal.World α β} (h : Deal.Steps checked kc ks wish ⟨c0, { io := io0 }⟩ as w)
    (hc : Asking.Ev.hangUp ∉ as) (hf : Asking.Ev.writeFails ∉ as) :
    w.client.io.inEnd = none ∧ w.server.io.inEnd = none ∧ w.client.io.writer ≠ writeError kc ∧
    w.client.io.rxAlive = true ∧ w.client.io.txAlive = true := by
  induction h with
  | nil => exact ⟨hu.inC, hu.inS, hu.outC, hu.rx, hu.tx⟩
  | @snoc as v a u hv hs ih =>
    simp only [List.mem_append, List.mem_singleton, not_or] at hc hf
    obtain ⟨h1, h2, h3, h4, h5⟩ := ih hc.1 hf.1
    cases hs with
    | ask _ _ => exact ⟨h1, h2, h3, h4, h5⟩
    | send _ hs => cases hs with | accept _ _ _ => exact ⟨h1, h2, by cases kc <;> simp [writeError], h4, h5⟩
    | say _ hs => cases hs with | accept _ _ _ => exact ⟨h1, h2, by cases kc <;> simp [writeError], h4, h5⟩
    | recv hs => cases hs with | deliver _ _ _ => exact ⟨h1, h2, h3, h4, h5⟩
    | @handle a b m _ => cases m <;> exact ⟨h1, h2, h3, h4, h5⟩
    | thread hs hk =>
      cases hs <;> first | (cases hk; done) | skip
      · rename_i r _ _
        cases r <;> exact ⟨h1, h2, h3, h4, h5⟩
      · exact ⟨h1, h2, h3, h4, h5⟩
      · exact ⟨h1, h2, by cases kc <;> simp [writeError], h4, h5⟩
      · exact ⟨h1, h2, by cases kc <;> simp [writeError], h4, h5⟩
      · exact ⟨h1, h2, by cases kc <;> simp [writeError], h4, h5⟩
    | fails hs => exact absurd rfl hf.2
    | toClient _ _ hs => cases hs with | arrive _ _ => exact ⟨h1, h2, h3, h4, h5⟩
    | cutClient hs => exact absurd rfl hc.2
    | toServer _ _ hs => cases hs with | arrive _ _ => exact ⟨h1, h2, h3, h4, h5⟩
    | cutServer hs => exact absurd rfl hc.2
    | server hs hn =>
      refine ⟨h1, ?_, h3, h4, h5⟩
      generalize v.server = t at hs h2
      rw [(serving_keeps hs hn).2]
      exact h2

/-- C120: no write fails, nothing is cut, the client does not send exit, and nothing more can happen by itself.  Then the
requests that have been answered are exactly those that are sent with params: the queue has the data of the others only,
and the client has handled all there is. -/
theorem C120_rest {c0 : Asking.Client α} {io0 : Transport.State} (hr : Spec.Ready kc ks c0 io0)
    (hu : Spec.Up kc ks c0.io io0) [Inhabited β]
    {as : List Asking.Ev} {w : Deal.World α β} (h : Deal.Steps checked kc ks wish ⟨c0, { io := io0 }⟩ as w)
    (hc : Asking.Ev.hangUp ∉ as) (hf : Asking.Ev.writeFails ∉ as) (hq : Deal.Quiet checked kc ks wish w)
    (hn : checked = true ∨ w.client.asked.length ≤ 2 ^ 32) (hm : ∀ m ∈ w.client.io.accepted, Spec.Sayable m)
    (hsay : ∀ m ∈ w.server.io.accepted, Spec.Sayable m)
    (hx : Message.notification .exit ∉ w.client.io.accepted) :
    w.client.outbox = [] ∧ w.client.inbox = [] ∧ w.server.inbox = [] ∧ w.server.jobs = [] ∧ w.server.outbox = [] ∧
    ∃ xs rest, Spec.MatchedBy (Spec.Outcome wish w.client.io.accepted w.server.finished) xs rest w.client.asked
        w.client.handled w.client.queue.pending ∧
      ∀ x ∈ rest, Spec.Bare x.1 := by
  obtain ⟨u1, u2, u3, u4, u5⟩ := deal_up hu h hc hf
  have hi := dealInv hr h
  obtain ⟨_, _, hdist⟩ := deal_facts hr hi hn hm hsay
  have hnd := deal_nodup hi hn
  obtain ⟨bs, hp, hpf⟩ := hi.serv
  obtain ⟨said, hs1, hs2⟩ := hi.said
  obtain ⟨got, hg1, hg2⟩ := hi.got
  obtain ⟨p1, p2, p3, p4⟩ := pair_inv hi.pair
  have hio := (pair_inv hr.pair).2.1
  have hds : w.server.io.delivered <+: w.client.io.accepted.map Spec.heard := C56_heard hi.pair hm
  have move : ∀ {v}, ¬ Deal.Step checked kc ks wish w .move v := fun h => (hq _ _ h).1 rfl
  -- the client's writer
  have hw : w.client.io.writer = .idle := by
    have hwi := writeInv p1
    cases hwr : w.client.io.writer with
    | idle => rfl
    | done => have := (C54_drained p1 hwr).1; rw [u5] at this; cases this
    | writing rest =>
      cases rest with
      | nil => exact (move (.thread (.written _ hwr) rfl)).elim
      | cons y rest => exact (move (.thread (.write _ [y] rest hwr (by simp)) rfl)).elim
    | failed => simp only [WriteInv, hwr] at hwi; rw [hwr, hwi.1] at u3; exact absurd rfl u3
    | panicked => simp only [WriteInv, hwr] at hwi; rw [hwr, hwi.1] at u3; exact absurd rfl u3
  have hout : w.client.io.out = w.client.io.accepted.flatMap Frame.write := by
    have hwi := writeInv p1
    simp only [WriteInv, hw] at hwi; exact hwi
  have hob : w.client.outbox = [] := by
    cases ho : w.client.outbox with
    | nil => rfl
    | cons r l => exact (move (.send (a := []) ho (.accept _ _ hw u5))).elim
  have hib : w.client.inbox = [] := by
    cases ho : w.client.inbox with
    | nil => rfl
    | cons r l => exact (move (.handle (a := []) ho)).elim
  -- the server
  have hpq : Serving.Quiet ks wish w.server := by
    intro a q hs
    by_cases ha : a = .peer
    · exact ha
    · have := hq _ _ (.server hs ha)
      cases a <;> simp [Asking.evOf] at this ⊢
      -- the time limit does not concern this server
      cases hs with
      | io hs hk => cases hs <;> simp [Pool.kindOf] at hk
  have hov : ¬ Over w.server.io := not_over hi.pair hm hx u2
  have hpw : Pool.Act.writeFails ∉ bs := fun h => hf (hpf h)
  obtain ⟨ds, sent, d1, d2, d3, _, _, d4, d5⟩ := C119_rest hio hr.rx hr.tx hu.outS hp hpw hpq
  obtain ⟨ds', sent', d1', d2', d6, _⟩ := C119_distinct hio hr.rx hr.tx hu.outS hp hpw hpq hdist
  have hread : w.server.io.reader = .reading := by
    rcases d5 with ⟨h1, _⟩ | ⟨_, h1⟩
    · exact h1
    · exact absurd h1 hov
  obtain rfl : ds' = ds := List.append_cancel_left (d1'.symm.trans d1)
  obtain rfl : sent' = sent := by
    have := List.append_cancel_left (d2'.symm.trans d2)
    exact List.map_inj_right (by simp) |>.1 this
  have harr : w.server.io.arrived = w.client.io.out := by
    obtain ⟨t, ht⟩ := p3
    by_cases hne : t = []
    · rw [← ht, hne, List.append_nil]
    · exact (move (.toServer hne (by rw [← ht]; exact List.prefix_rfl) (.arrive _ t u2))).elim
  have hdel : w.server.io.delivered = w.client.io.accepted.map Spec.heard :=
    C56_heard_all hi.pair hm (harr.trans hout) hread (by
      rintro ⟨s', hs'⟩
      cases hpq _ _ (.io hs' rfl))
  -- the client's reader
  have hsx : Message.notification .exit ∉ w.server.io.accepted := by
    rw [d2]
    intro hm
    rcases List.mem_append.1 hm with hm | hm
    · exact hu.stays hm
    · simp at hm
  have hcr : w.client.io.reader = .reading := by
    have hov : ¬ Over w.client.io := not_over (pair_swap hi.pair) hsay hsx u1
    have ended : w.client.io.reader.ended = true → False := fun h => hov (over_closed p1 h u4)
    cases hrd : w.client.io.reader with
    | reading => rfl
    | sending m => exact (move (.recv (.deliver _ m hrd u4))).elim
    | _ => exact (ended (by rw [hrd]; rfl)).elim
  have hcarr : w.client.io.arrived = w.server.io.out := by
    obtain ⟨t, ht⟩ := p4
    by_cases hne : t = []
    · rw [← ht, hne, List.append_nil]
    · exact (move (.toClient hne (by rw [← ht]; exact List.prefix_rfl) (.arrive _ t u1))).elim
  have hcdel : w.client.io.delivered = w.server.io.accepted.map Spec.heard :=
    C56_heard_all (pair_swap hi.pair) hsay (hcarr.trans d4) hcr (by
      rintro ⟨s', hs'⟩
      exact move (.thread hs' rfl))
  -- the server has nothing left to do
  have hsi : w.server.inbox = [] := by
    cases hb : w.server.inbox with
    | nil => rfl
    | cons m l => cases hpq _ _ (.handle (a := []) (d := default) hb)
  have hsj : w.server.jobs = [] := by
    cases hb : w.server.jobs with
    | nil => rfl
    | cons m l => cases hpq _ _ (.finish (a := []) (r := m.1) (d := m.2) (x := ⟨m.1.id, none, none⟩) hb rfl)
  have hso : w.server.outbox = [] := by
    obtain ⟨sent'', T⟩ := serveInv hio hr.rx hr.tx hp
    obtain ⟨_, hd⟩ := T.got
    cases hb : w.server.outbox with
    | nil => rfl
    | cons x l =>
      have hwi := writeInv p2
      cases hwr : w.server.io.writer with
      | idle => cases hpq _ _ (.send (a := []) hb (.accept _ _ hwr T.tx))
      | done => have := (C54_drained p2 hwr).1; rw [T.tx] at this; cases this
      | writing rest =>
        cases rest with
        | nil => cases hpq _ _ (.io (.written _ hwr) rfl)
        | cons y rest => cases hpq _ _ (.io (.write _ [y] rest hwr (by simp)) rfl)
      | failed => have := T.fails hpw hu.outS; simp only [WriteInv, hwr] at hwi; rw [hwr, hwi.1] at this; exact absurd rfl this
      | panicked => have := T.fails hpw hu.outS; simp only [WriteInv, hwr] at hwi; rw [hwr, hwi.1] at this; exact absurd rfl this
  -- together
  have e1 : ds' = said.map Spec.heard := by
    rw [d1, hs1, List.map_append] at hdel
    exact List.append_inj_right hdel (by simpa using hr.said)
  have e2 : got = (sent'.map Message.response).map Spec.heard := by
    rw [hg1, d2, List.map_append] at hcdel
    exact List.append_inj_right hcdel (by simpa using hr.heard)
  obtain ⟨xs, rest, h1, h2, h3, h4⟩ := C120_matched hr h hn hm hsay
  refine ⟨hob, hib, hsi, hsj, hso, xs, rest, ⟨h1, h2, h3, h4⟩, ?_⟩
  intro x hxr
  refine Classical.byContradiction fun hb => ?_
  have hxa : x ∈ w.client.asked := h1.mem_iff.1 (List.mem_append_right _ hxr)
  have hxs : x.1 ∈ Spec.requests said := by
    rw [hob, List.append_nil] at hs2
    exact hs2.mem_iff.2 (List.mem_map.2 ⟨x, hxa, rfl⟩)
  obtain ⟨r', hr1, hr2⟩ := heard_not_bare hxs hb
  rw [← e1] at hr1
  obtain ⟨z, hz, hz1⟩ := List.mem_map.1 (d6.mem_iff.2 (List.mem_map.2 ⟨r', hr1, rfl⟩))
  have hz3 : Spec.heard (.response z) ∈ got := by
    rw [e2]
    exact List.mem_map.2 ⟨_, List.mem_map.2 ⟨z, hz, rfl⟩, rfl⟩
  rw [hib, List.append_nil, ← h2] at hg2
  have hz4 := hg2.mem_iff.2 hz3
  simp only [List.map_map] at hz4
  obtain ⟨y, hy, hy1⟩ := List.mem_map.1 hz4
  have hy2 := rid_outcome (h3 y hy).1
  simp only [Function.comp_apply] at hy1
  have hy3 : rid (Spec.heard (.response z)) = some x.1.id := by
    rw [← hr2, ← hz1]; rfl
  rw [← hy1, hy2, Option.some.injEq] at hy3
  have hd2 := (h1.map fun x => x.1.id).nodup_iff.2 hnd
  rw [List.map_append, List.nodup_append] at hd2
  exact hd2.2.2 y.1.id (List.mem_map.2 ⟨_, List.mem_map.2 ⟨y, hy, rfl⟩, rfl⟩) x.1.id
    (List.mem_map.2 ⟨x, hxr, rfl⟩) hy3

/-! ### Every run comes to rest -/

/-- What is left to be done: requests to be sent; bytes on their way to the server; what the server has to do; what the
client has to do with what the server has written. -/
def dealWork (w : Deal.World α β) : Nat × Nat × (Nat × Nat) × Nat :=
  (w.client.outbox.length,
   2 * workLeft w.client.io.writer + (w.client.io.out.length - w.server.io.arrived.length) +
     w.server.io.inEnd.isNone.toNat,
   serveWork w.server,
   11 * (w.server.io.out.length - w.client.io.arrived.length) + 10 * w.client.io.unread.length +
     (match w.client.io.reader with | .reading => 3 | .sending _ => 6 | _ => 0) + w.client.inbox.length +
     w.client.io.inEnd.isNone.toNat)

theorem dealWork_decreases {v u : Deal.World α β} {a : Asking.Ev} (h : Deal.Step checked kc ks wish v a u) (h1 : a ≠ .ask)
    (h2 : a ≠ .say) : Less (dealWork u) (dealWork v) := by
  have last : ∀ {x y : Nat × Nat × (Nat × Nat) × Nat}, x.1 = y.1 → x.2.1 = y.2.1 → x.2.2.1 = y.2.2.1 →
      x.2.2.2 < y.2.2.2 → Less x y := fun h1 h2 h3 h4 => .inr ⟨h1, .inr ⟨h2, .inr ⟨h3, h4⟩⟩⟩
  cases h with
  | ask _ _ => exact absurd rfl h1
  | say _ _ => exact absurd rfl h2
  | send ho hs => exact .inl (by simp [dealWork, ho])
  | recv hs =>
    cases hs with
    | deliver _ hr _ =>
      refine last rfl rfl rfl ?_
      simp only [dealWork, hr, afterSend, List.length_append, List.length_cons, List.length_nil]
      split
      · omega
      · rename_i he
        split at he <;> cases he
      · omega
  | @handle a b m hi =>
    cases m <;> exact last rfl rfl rfl (by simp [dealWork, hi, Asking.Client.handle])
  | thread hs hk =>
    cases hs <;> first | (cases hk; done) | skip
    case read r hr hs =>
      refine last ?_ ?_ ?_ ?_ <;> cases r <;> try rfl
      case item m rest =>
        obtain ⟨f, cs, j, hf, _, _, _, hu⟩ := settled_item hs
        have := frame_nonempty hf
        simp only [dealWork, afterRead, hr, hu, List.length_append]
        omega
      all_goals cases kc <;> simp only [dealWork, afterRead, readError, hr] <;> omega
    case undeliverable m hr _ => exact last rfl rfl rfl (by simp only [dealWork, hr]; omega)
    case write x y hw hne =>
      have : 0 < x.length := by cases x <;> simp_all
      refine .inr ⟨rfl, .inl ?_⟩
      simp only [dealWork, workLeft, hw, List.length_append]
      omega
    case written hw => exact .inr ⟨rfl, .inl (by simp [dealWork, workLeft, hw])⟩
    case close hw _ => exact .inr ⟨rfl, .inl (by simp [dealWork, workLeft, hw])⟩
  | fails hs =>
    cases hs with
    | writeFails b hw => exact .inr ⟨rfl, .inl (by cases kc <;> simp [dealWork, workLeft, hw, writeError])⟩
  | @toClient bs _ hne hp hs =>
    cases hs with
    | arrive _ h3 =>
      refine last rfl rfl rfl ?_
      have h4 := hp.length_le
      have := List.length_pos_iff.2 hne
      simp only [List.length_append] at h4
      simp only [dealWork, List.length_append]
      omega
  | cutClient hs => cases hs with | hangUp b h3 => exact last rfl rfl rfl (by simp [dealWork, h3])
  | @toServer bs _ hne hp hs =>
    cases hs with
    | arrive _ h3 =>
      refine .inr ⟨rfl, .inl ?_⟩
      have h4 := hp.length_le
      have := List.length_pos_iff.2 hne
      simp only [List.length_append] at h4
      simp only [dealWork, List.length_append]
      omega
  | cutServer hs => cases hs with | hangUp b h3 => exact .inr ⟨rfl, .inl (by simp [dealWork, h3])⟩
  | server hs hn =>
    obtain ⟨h3, h4⟩ := serving_keeps hs hn
    exact .inr ⟨rfl, .inr ⟨by simp only [dealWork, h3, h4], .inl (serveWork_decreases hs hn)⟩⟩

/-- C120: the client and the server come to rest when the client asks and says nothing more: there is no infinite run
from any state. -/
theorem C120_terminates (checked : Bool) (kc ks : Kind) (wish : Message → Option RequestId) :
    WellFounded fun u v : Deal.World α β => ∃ a, a ≠ .ask ∧ a ≠ .say ∧ Deal.Step checked kc ks wish v a u :=
  Subrelation.wf (fun ⟨_, h1, h2, h⟩ => dealWork_decreases h h1 h2) (InvImage.wf dealWork less_wf)

theorem deal_cons {u v w : Deal.World α β} {a : Asking.Ev} {as : List Asking.Ev}
    (h1 : Deal.Step checked kc ks wish u a v) (h2 : Deal.Steps checked kc ks wish v as w) :
    Deal.Steps checked kc ks wish u (a :: as) w := by
  induction h2 with
  | nil => exact Deal.Steps.snoc (.nil _) h1
  | snoc _ h4 ih => exact Deal.Steps.snoc ih h4

/-- If something can happen by itself, something can happen without a failing write. -/
theorem deal_can {w : Deal.World α β} (hq : ¬ Deal.Quiet checked kc ks wish w) :
    ∃ v, Deal.Step checked kc ks wish w .move v := by
  simp only [Deal.Quiet, Classical.not_forall, not_and, Classical.not_not] at hq
  obtain ⟨a, v, h1, h2⟩ := hq
  by_cases hm : a = .move
  · exact ⟨v, hm ▸ h1⟩
  have ha := h2 hm
  subst ha
  generalize he : Asking.Ev.writeFails = e at h1
  cases h1 with
  | fails hs =>
    cases hs with
    | writeFails b hw =>
      cases b with
      | nil => exact ⟨_, .thread (.written _ hw) rfl⟩
      | cons y b => exact ⟨_, .thread (.write _ [y] b hw (by simp)) rfl⟩
  | @server a q hs hn =>
    cases a <;> simp [Asking.evOf] at he
    revert hs
    generalize hp : w.server = p
    intro hs
    cases hs with
    | io hs hk =>
      cases hs with
      | writeFails b hw =>
        cases b with
        | nil => exact ⟨_, .server (a := .thread) (.io (.written _ (hp ▸ hw)) rfl) (by simp)⟩
        | cons y b => exact ⟨_, .server (a := .thread) (.io (.write _ [y] b (hp ▸ hw) (by simp)) rfl) (by simp)⟩
      | _ => simp [Pool.kindOf] at hk
  | _ => cases he

/-- C120: from any state the two sides can come to rest by themselves: without a failing write, without a cut, without
waiting for the time limit. -/
theorem C120_settles (checked : Bool) (kc ks : Kind) (wish : Message → Option RequestId) (w : Deal.World α β) :
    ∃ as v, Deal.Steps checked kc ks wish w as v ∧ Deal.Quiet checked kc ks wish v ∧ ∀ a ∈ as, a = .move := by
  refine (C120_terminates checked kc ks wish).induction (C := fun w : Deal.World α β => ∃ as v, Deal.Steps checked kc ks wish w as v ∧
    Deal.Quiet checked kc ks wish v ∧ ∀ a ∈ as, a = .move) w ?_
  intro w ih
  by_cases hq : Deal.Quiet checked kc ks wish w
  · exact ⟨[], w, .nil w, hq, by simp⟩
  obtain ⟨v, h1⟩ := deal_can hq
  obtain ⟨as, u, h3, h4, h5⟩ := ih v ⟨_, by simp, by simp, h1⟩
  refine ⟨.move :: as, u, deal_cons h1 h3, h4, ?_⟩
  intro b hb
  rcases List.mem_cons.1 hb with rfl | hb
  · rfl
  · exact h5 b hb

theorem deal_move {v u : Deal.World α β} {as : List Asking.Ev} (h : Deal.Steps checked kc ks wish v as u)
    (ha : ∀ a ∈ as, a = .move) : u.client.asked = v.client.asked := by
  induction h with
  | nil => rfl
  | @snoc as t a u hv hs ih =>
    rw [← ih (fun b hb => ha b (List.mem_append_left _ hb))]
    have := ha a (by simp)
    cases hs with
    | ask _ _ => cases this
    | @handle a b m _ => cases m <;> rfl
    | _ => rfl

/-- A client that asks only sends its requests. -/
theorem deal_only {v u : Deal.World α β} {as : List Asking.Ev} (h : Deal.Steps checked kc ks wish v as u)
    (ha : Asking.Ev.say ∉ as) (h1 : v.client.outbox = []) :
    (∀ r ∈ u.client.outbox, ∃ x ∈ u.client.asked, x.1 = r) ∧
    ∀ m ∈ u.client.io.accepted, m ∈ v.client.io.accepted ∨ ∃ x ∈ u.client.asked, m = .request x.1 := by
  induction h with
  | nil => exact ⟨by simp [h1], fun m hm => .inl hm⟩
  | @snoc as t a u hv hs ih =>
    simp only [List.mem_append, List.mem_singleton, not_or] at ha
    obtain ⟨h2, h3⟩ := ih ha.1
    have same : ∀ {io : Transport.State}, io.accepted = t.client.io.accepted →
        ∀ m ∈ io.accepted, m ∈ v.client.io.accepted ∨ ∃ x ∈ t.client.asked, m = Message.request x.1 := by
      intro io h m hm
      exact h3 m (h ▸ hm)
    cases hs with
    | @ask d id q r _ _ =>
      refine ⟨?_, fun m hm => ?_⟩
      · intro x hx
        rcases List.mem_append.1 hx with hx | hx
        · obtain ⟨y, hy, hy1⟩ := h2 x hx
          exact ⟨y, List.mem_append_left _ hy, hy1⟩
        · simp only [List.mem_singleton] at hx
          exact ⟨(r, d), by simp, hx.symm⟩
      · refine (h3 m hm).imp_right ?_
        rintro ⟨y, hy, hy1⟩
        exact ⟨y, List.mem_append_left _ hy, hy1⟩
    | send ho hs =>
      cases hs with
      | accept _ _ _ =>
        refine ⟨fun r hr => h2 r ?_, ?_⟩
        · rw [ho]
          rcases List.mem_append.1 hr with hr | hr
          · exact List.mem_append_left _ hr
          · exact List.mem_append_right _ (List.mem_cons_of_mem _ hr)
        · intro m hm
          rcases List.mem_append.1 hm with hm | hm
          · exact h3 m hm
          · simp only [List.mem_singleton] at hm
            subst hm
            obtain ⟨x, hx, hx1⟩ := h2 _ (ho ▸ List.mem_append_right _ (List.mem_cons_self ..))
            exact .inr ⟨x, hx, by rw [hx1]⟩
    | say _ _ => exact absurd rfl ha.2
    | recv hs => cases hs with | deliver _ _ _ => exact ⟨h2, h3⟩
    | @handle a b m _ => cases m <;> exact ⟨h2, h3⟩
    | thread hs hk => exact ⟨h2, same (thread_same hs (by rw [hk]; simp)).1⟩
    | fails hs => exact ⟨h2, same (thread_same hs (by simp [Pool.kindOf])).1⟩
    | toClient _ _ hs => exact ⟨h2, same (thread_same hs (by simp [Pool.kindOf])).1⟩
    | cutClient hs => exact ⟨h2, same (thread_same hs (by simp [Pool.kindOf])).1⟩
    | toServer _ _ _ => exact ⟨h2, h3⟩
    | cutServer _ => exact ⟨h2, h3⟩
    | server _ _ => exact ⟨h2, h3⟩

/-- The server answers only what it has been asked. -/
theorem deal_ids {c0 : Asking.Client α} {io0 : Transport.State} (hr : Spec.Ready kc ks c0 io0)
    {as : List Asking.Ev} {w : Deal.World α β} (h : Deal.Steps checked kc ks wish ⟨c0, { io := io0 }⟩ as w)
    (hm : ∀ m ∈ w.client.io.accepted, Spec.Sayable m) {x : Response} (hx : .response x ∈ w.server.io.accepted)
    (h0 : .response x ∉ io0.accepted) : ∃ y ∈ w.client.asked, x.id = y.1.id := by
  have hi := dealInv hr h
  obtain ⟨bs, hp, _⟩ := hi.serv
  obtain ⟨said, hs1, hs2⟩ := hi.said
  obtain ⟨ds, sent, h1, h2, h3, _⟩ := C119_once (pair_inv hr.pair).2.1 hr.rx hr.tx hp
  rw [h2] at hx
  obtain ⟨x', hx', e⟩ := List.mem_map.1 ((List.mem_append.1 hx).resolve_left h0)
  cases e
  have h4 := h3 x.id
  have h5 : 0 < Spec.replies x.id sent := List.count_pos_iff.2 (List.mem_map.2 ⟨x, hx', rfl⟩)
  obtain ⟨r, h6, h7⟩ := List.mem_map.1 (List.count_pos_iff.1 (show 0 < Spec.asks x.id ds by omega))
  have hds : ds <+: said.map Spec.heard := by
    have h1' := C56_heard hi.pair hm
    simp only [h1, hs1, List.map_append] at h1'
    obtain ⟨t, ht⟩ := h1'
    rw [List.append_assoc] at ht
    exact ⟨t, List.append_inj_right ht (by simpa using hr.said)⟩
  obtain ⟨t, ht⟩ := hds
  obtain ⟨q, k1, k2⟩ := mem_requests_heard (show r ∈ Spec.requests (said.map Spec.heard) by
    rw [← ht, reqs_append]; exact List.mem_append_left _ h6)
  obtain ⟨y, k3, k4⟩ := List.mem_map.1 (hs2.mem_iff.1 (List.mem_append_left _ k1))
  exact ⟨y, k3, by rw [← h7, (heard_asked k2).1, k4]⟩

theorem deal_append {u v w : Deal.World α β} {as bs : List Asking.Ev}
    (h1 : Deal.Steps checked kc ks wish u as v) (h2 : Deal.Steps checked kc ks wish v bs w) :
    Deal.Steps checked kc ks wish u (as ++ bs) w := by
  induction h2 with
  | nil => simpa using h1
  | snoc _ h4 ih => rw [← List.append_assoc]; exact .snoc ih h4

/-- A response without result and error, or one that says that the request has been cancelled. -/
def PlainReply (x : Response) : Prop := x = ⟨x.id, none, none⟩ ∨ x = Spec.canceled x.id

/-- All that the server sends is plain. -/
def AllPlain (s : Serving.State β) : Prop :=
  (∀ x ∈ s.outbox, PlainReply x) ∧ (∀ x ∈ s.finished, PlainReply x.2.2.1) ∧ ∀ m ∈ s.io.accepted, ∃ x, m = .response x ∧ PlainReply x

theorem plain_step {s t : Serving.State β} {a : Pool.Act} (h : Serving.Step ks wish s a t)
    (hp : AllPlain s) : ∃ t, Serving.Step ks wish s a t ∧ AllPlain t := by
  obtain ⟨p1, p3, p2⟩ := hp
  cases h with
  | io hs hk =>
    refine ⟨_, .io hs hk, p1, p3, ?_⟩
    rw [(thread_same hs (by rw [hk]; simp)).1]
    exact p2
  | recv hs =>
    refine ⟨_, .recv hs, p1, p3, ?_⟩
    cases hs with | deliver _ _ _ => exact p2
  | @handle a b m d hi =>
    refine ⟨_, .handle (d := d) hi, ?_, ?_, ?_⟩
    · have : ∀ x ∈ (s.handle wish m d).outbox, PlainReply x := by
        cases m <;> simp only [Serving.State.handle, Serving.State.begin] <;> try exact p1
        all_goals
          cases wish _ with
          | none => exact p1
          | some id =>
            simp only [Serving.State.cancel, Queue.Incoming.cancel]
            rcases s.queue.complete id with ⟨_ | v, q'⟩
            · simpa using p1
            · intro x hx
              simp only [Option.toList, List.mem_append, List.mem_singleton] at hx
              rcases hx with hx | rfl
              · exact p1 x hx
              · exact .inr rfl
      exact this
    · have : (s.handle wish m d).finished = s.finished := by
        cases m <;> simp only [Serving.State.handle, Serving.State.begin] <;> cases wish _ <;> rfl
      simp only [this]
      exact p3
    · have : (s.handle wish m d).io = s.io := by
        cases m <;> simp only [Serving.State.handle, Serving.State.begin] <;> cases wish _ <;> rfl
      simp only [this]
      exact p2
  | @finish a b r d x hj hx =>
    refine ⟨_, .finish (x := ⟨r.id, none, none⟩) hj rfl, ?_, ?_, p2⟩
    rotate_left
    · intro x hx
      rcases List.mem_append.1 hx with hx | hx
      · exact p3 x hx
      · simp only [List.mem_singleton] at hx
        subst hx
        exact .inl rfl
    simp only [Serving.State.finish]
    split
    · intro x hx
      rcases List.mem_append.1 hx with hx | hx
      · exact p1 x hx
      · simp only [List.mem_singleton] at hx
        subst hx
        exact .inl rfl
    · exact p1
  | @send a b x io' ho hs =>
    refine ⟨_, .send ho hs, ?_, p3, ?_⟩
    · intro y hy
      refine p1 y (ho ▸ ?_)
      rcases List.mem_append.1 hy with hy | hy
      · exact List.mem_append_left _ hy
      · exact List.mem_append_right _ (List.mem_cons_of_mem _ hy)
    · cases hs with
      | accept _ _ _ =>
        intro m hm
        rcases List.mem_append.1 hm with hm | hm
        · exact p2 m hm
        · simp only [List.mem_singleton] at hm
          exact ⟨x, hm, p1 x (ho ▸ List.mem_append_right _ (List.mem_cons_self ..))⟩

/-- The two sides come to rest with plain responses only. -/
theorem deal_plain (w : Deal.World α β) (hp : AllPlain w.server) :
    ∃ as v, Deal.Steps checked kc ks wish w as v ∧ Deal.Quiet checked kc ks wish v ∧ (∀ a ∈ as, a = .move) ∧
      AllPlain v.server := by
  revert hp
  refine (C120_terminates checked kc ks wish).induction (C := fun w : Deal.World α β => AllPlain w.server →
    ∃ as v, Deal.Steps checked kc ks wish w as v ∧ Deal.Quiet checked kc ks wish v ∧ (∀ a ∈ as, a = .move) ∧
      AllPlain v.server) w ?_
  intro w ih hp
  by_cases hq : Deal.Quiet checked kc ks wish w
  · exact ⟨[], w, .nil w, hq, by simp, hp⟩
  have : ∃ v, Deal.Step checked kc ks wish w .move v ∧ AllPlain v.server := by
    obtain ⟨v, h1⟩ := deal_can hq
    generalize he : Asking.Ev.move = e at h1
    cases h1 with
    | @server a q hs hn =>
      obtain ⟨t, k1, k2⟩ := plain_step hs hp
      exact ⟨_, .server k1 hn, k2⟩
    | toServer h1 h2 hs =>
      refine ⟨_, .toServer h1 h2 hs, hp.1, hp.2.1, ?_⟩
      cases hs with | arrive _ _ => exact hp.2.2
    | ask _ _ => cases he
    | say _ _ => cases he
    | fails _ => cases he
    | cutClient _ => cases he
    | cutServer _ => cases he
    | send h1 hs => exact ⟨_, .send h1 hs, hp⟩
    | recv hs => exact ⟨_, .recv hs, hp⟩
    | handle h1 => exact ⟨_, .handle h1, hp⟩
    | thread h1 h2 => exact ⟨_, .thread h1 h2, hp⟩
    | toClient h1 h2 hs => exact ⟨_, .toClient h1 h2 hs, hp⟩
  obtain ⟨v, h1, h2⟩ := this
  obtain ⟨as, u, h3, h4, h5, h6⟩ := ih v ⟨_, by simp, by simp, h1⟩ h2
  refine ⟨.move :: as, u, deal_cons h1 h3, h4, ?_, h6⟩
  intro b hb
  rcases List.mem_cons.1 hb with rfl | hb
  · rfl
  · exact h5 b hb


end

/-! ### Concrete cases -/

section
attribute [local instance] Ext.sample FloatText.sample Dbg.sample

/-- What it says in the notification. -/
def sampleWish0 : Message → Option RequestId
  | .notification (.custom "$/cancelRequest" _) => some (.i32 0)
  | _ => none

/-- The notification. -/
def sampleCancel : Message := .notification (.custom "$/cancelRequest" (.ofJson (.arr [.int 0])))

theorem sampleDeal_start (checked : Bool) (kc ks : Kind) : ∃ v w : Deal.World String String,
    Deal.Steps checked kc ks sampleWish0 ⟨{}, {}⟩ [.say] v ∧
    Deal.Steps checked kc ks sampleWish0 v [.ask, .ask] w ∧ w.client.asked = sampleAsked ∧ v.client.outbox = [] ∧
    v.client.io.accepted = [sampleCancel] ∧ w.server = {} := by
  obtain ⟨q, hq⟩ : ∃ q, (Queue.Outgoing.new : Queue.Outgoing String).register checked "sources" = some (.i32 0, q) ∧
      ∃ q', q.register checked "reload" = some (.i32 1, q') := by
    cases checked <;> exact ⟨_, rfl, _, rfl⟩
  obtain ⟨h1, q', h2⟩ := hq
  have s0 := Deal.Step.say (checked := checked) (kc := kc) (ks := ks) (wish := sampleWish0)
    (w := (⟨{}, {}⟩ : Deal.World String String)) (m := sampleCancel) (by simp [sampleCancel]) (.accept _ _ rfl rfl)
  refine ⟨_, _, .snoc (.nil _) s0, .snoc (.snoc (.nil _) (.ask (r := .buildTargetSources (.i32 0) ⟨[]⟩) h1 rfl))
    (.ask (r := .workspaceReload (.i32 1)) h2 rfl), rfl, rfl, rfl, rfl⟩

set_option maxRecDepth 5000 in
theorem sampleCancel_sayable : Spec.Sayable sampleCancel :=
  ⟨.inl (by simp [sampleCancel, Spec.WireOk, Spec.NotOk]; decide), by decide, by repeat' constructor, by decide +kernel⟩

set_option maxRecDepth 5000 in
theorem samplePlain_sayable {x : Response} (h : PlainReply x) (hi : x.id = .i32 0 ∨ x.id = .i32 1) :
    Spec.Sayable (.response x) := by
  rcases h with h | h <;> rcases hi with e | e <;> rw [e] at h <;> subst h <;>
    exact ⟨.inl trivial, by decide, by repeat' constructor, by decide +kernel⟩

/-- Beside C120_settles, C120_rest: the client says that it will not want the answer to its first request, and asks twice.
When nothing more can happen, it has handled the answer to the first request with the data registered for it: there is no
result, or it has been cancelled (it depends on which message the server handles first); the data of the second, to which
there is no answer, is pending. -/
example (checked : Bool) (kc ks : Kind) : ∃ as, ∃ w : Deal.World String String, ∃ x,
    Deal.Steps checked kc ks sampleWish0 ⟨{}, {}⟩ as w ∧ Deal.Quiet checked kc ks sampleWish0 w ∧
    (x = ⟨.i32 0, none, none⟩ ∨ x = Spec.canceled (.i32 0)) ∧
    w.client.handled = [(Spec.heard (.response x), some "sources")] ∧
    w.client.queue.pending (.i32 0) = none ∧ w.client.queue.pending (.i32 1) = some "reload" := by
  obtain ⟨u, v, h0, h1, h2, o1, o2, o3⟩ := sampleDeal_start checked kc ks
  obtain ⟨bs, w, h3, h4, h5, hpl⟩ := deal_plain (checked := checked) (kc := kc) (ks := ks) (wish := sampleWish0) v
    (by rw [o3]; exact ⟨by simp, by simp, by simp⟩)
  have h13 := deal_append h1 h3
  have h6 := deal_append h0 h13
  have hno : ∀ a, a ≠ .ask → a ≠ .move → a ∉ [Asking.Ev.ask, .ask] ++ bs := by
    intro a ha hm h
    rcases List.mem_append.1 h with h | h
    · simp at h; exact ha h
    · exact hm (h5 a h)
  have hno' : ∀ a, a ≠ .ask → a ≠ .move → a ≠ .say → a ∉ [Asking.Ev.say] ++ ([Asking.Ev.ask, .ask] ++ bs) := by
    intro a ha hm hs h
    rcases List.mem_append.1 h with h | h
    · simp at h; exact hs h
    · exact hno a ha hm h
  have h7 : w.client.asked = sampleAsked := (deal_move h3 h5).trans h2
  have h8 := (deal_only h13 (hno _ (by simp) (by simp)) o1).2
  rw [h7, o2] at h8
  have hm : ∀ m ∈ w.client.io.accepted, Spec.Sayable m := by
    intro m hm
    rcases h8 m hm with h | ⟨x, hx, rfl⟩
    · rw [List.mem_singleton.1 h]; exact sampleCancel_sayable
    · exact sampleAsked_sayable x hx
  have hn : checked = true ∨ w.client.asked.length ≤ 2 ^ 32 := .inr (by rw [h7]; decide)
  have hsay : ∀ m ∈ w.server.io.accepted, Spec.Sayable m := by
    intro m hmm
    obtain ⟨x, rfl, hx⟩ := hpl.2.2 m hmm
    refine samplePlain_sayable hx ?_
    obtain ⟨y, hy, hy1⟩ := deal_ids (ready_start kc ks) h6 hm hmm (by simp)
    rw [h7] at hy
    simp only [sampleAsked, List.mem_cons, List.not_mem_nil, or_false] at hy
    rcases hy with rfl | rfl
    · exact .inl hy1
    · exact .inr hy1
  obtain ⟨_, _, _, _, _, xs, rest, ⟨m1, m2, m3, m4⟩, m5⟩ := C120_rest (ready_start kc ks) (up_start kc ks) h6
    (hno' _ (by simp) (by simp) (by simp)) (hno' _ (by simp) (by simp) (by simp)) h4 hn hm hsay
    (by
      intro hm
      rcases h8 _ hm with h | ⟨x, _, hx⟩
      · simp [sampleCancel] at h
      · cases hx)
  rw [h7] at m1
  have b0 : ¬ Spec.Bare (.buildTargetSources (.i32 0) ⟨[]⟩) := by simp [Spec.Bare]
  have b1 : Spec.Bare (.workspaceReload (.i32 1)) := ⟨_, .inr (.inr (.inl rfl))⟩
  -- which is which
  have k0 := m1.mem_iff.2 (show (Request.buildTargetSources (.i32 0) ⟨[]⟩, "sources") ∈ sampleAsked by simp [sampleAsked])
  have k1 := m1.mem_iff.2 (show (Request.workspaceReload (.i32 1), "reload") ∈ sampleAsked by simp [sampleAsked])
  have hl := m1.length_eq
  simp only [List.length_append, List.length_map, sampleAsked, List.length_cons, List.length_nil] at hl
  rcases List.mem_append.1 k0 with j0 | j0
  · rcases List.mem_append.1 k1 with j1 | j1
    · obtain ⟨x, hx, hx1⟩ := List.mem_map.1 j1
      have hx2 := (m3 x hx).2
      rw [(Prod.mk.inj hx1).1] at hx2
      exact absurd b1 hx2
    · clear k0 k1
      have l0 : 0 < xs.length := by cases xs with | nil => cases j0 | cons _ _ => simp
      have l1 : 0 < rest.length := List.length_pos_of_mem j1
      obtain ⟨x, rfl⟩ := List.length_eq_one_iff.1 (show xs.length = 1 by omega)
      obtain ⟨y, rfl⟩ := List.length_eq_one_iff.1 (show rest.length = 1 by omega)
      simp only [List.map_cons, List.map_nil, List.mem_singleton, Prod.mk.injEq] at j0 j1
      obtain ⟨z, hz1, hz2, hz3⟩ := (m3 x (by simp)).1
      rw [← j0.1] at hz2
      have hz4 : PlainReply z := by
        rcases hz3 with ⟨_, _, _, h⟩ | ⟨h, _⟩
        · exact hpl.2.1 _ h
        · rw [h]; exact .inr rfl
      refine ⟨_, w, z, h6, h4, ?_, ?_, ?_, ?_⟩
      · rcases hz4 with h | h
        · exact .inl (by rw [h, hz2]; rfl)
        · exact .inr (by rw [h, hz2]; rfl)
      · rw [← m2]; simp [← j0.2, hz1]
      · rw [m4]; simp [← j1, Request.id]
      · rw [m4]; simp [← j1, Request.id]
  · exact absurd (m5 _ j0) b0

/-- Beside C120_matched: at any time, whatever goes wrong, in a run in which the server answers plainly. -/
example (kc ks : Kind) {as : List Asking.Ev} {w : Deal.World String String}
    (h : Deal.Steps true kc ks sampleWish0 ⟨{}, {}⟩ as w) (hs : Asking.Ev.say ∉ as)
    (ha : w.client.asked = sampleAsked) (hp : AllPlain w.server)
    (hf : ∀ f ∈ w.server.finished, f.2.2.1 = ⟨f.1.id, none, none⟩) (hh : w.client.handled ≠ []) :
    w.client.handled = [(.response ⟨.i32 0, none, none⟩, some "sources")] ∧ w.client.queue.pending (.i32 0) = none := by
  have h8 : ∀ m ∈ w.client.io.accepted, ∃ x ∈ sampleAsked, m = .request x.1 := by
    intro m hm
    rcases (deal_only h hs rfl).2 m hm with h | h
    · cases h
    · rwa [ha] at h
  have hm : ∀ m ∈ w.client.io.accepted, Spec.Sayable m := by
    intro m hm
    obtain ⟨x, hx, rfl⟩ := h8 m hm
    exact sampleAsked_sayable x hx
  have hsay : ∀ m ∈ w.server.io.accepted, Spec.Sayable m := by
    intro m hmm
    obtain ⟨x, rfl, hx⟩ := hp.2.2 m hmm
    refine samplePlain_sayable hx ?_
    obtain ⟨y, hy, hy1⟩ := deal_ids (ready_start kc ks) h hm hmm (by simp)
    rw [ha] at hy
    simp only [sampleAsked, List.mem_cons, List.not_mem_nil, or_false] at hy
    rcases hy with rfl | rfl
    · exact .inl hy1
    · exact .inr hy1
  obtain ⟨xs, rest, m1, m2, m3, m4⟩ := C120_matched (ready_start kc ks) h (.inl rfl) hm hsay
  rw [ha] at m1
  have hd := (m1.map fun x => x.1.id).nodup_iff.2 (by decide)
  rw [List.map_append, List.nodup_append] at hd
  have b1 : Spec.Bare (.workspaceReload (.i32 1)) := ⟨_, .inr (.inr (.inl rfl))⟩
  have all : ∀ x ∈ xs, x.1 = .buildTargetSources (.i32 0) ⟨[]⟩ ∧ x.2.1 = "sources" := by
    intro x hx
    have := m1.mem_iff.1 (List.mem_append_left _ (List.mem_map.2 ⟨x, hx, rfl⟩))
    simp only [sampleAsked, List.mem_cons, Prod.mk.injEq, List.not_mem_nil, or_false] at this
    rcases this with h1 | h1
    · exact h1
    · exact absurd (h1.1 ▸ b1) (m3 x hx).2
  cases xs with
  | nil => rw [← m2] at hh; exact absurd rfl hh
  | cons x xs =>
    have hx := all x (by simp)
    cases xs with
    | cons y ys =>
      have hy := all y (by simp)
      have := hd.1
      simp [hx.1, hy.1] at this
    | nil =>
      obtain ⟨z, hz1, hz2, hz3⟩ := (m3 x (by simp)).1
      rw [hx.1] at hz2 hz3
      have hz : z = ⟨.i32 0, none, none⟩ := by
        rcases hz3 with ⟨r', d, e, h⟩ | ⟨_, q, hq, _, h⟩
        · obtain ⟨e1, _⟩ := heard_asked e
          have := hf _ h
          simp only at this
          rw [this, e1]
          rfl
        · obtain ⟨y, hy, rfl⟩ := h8 q hq
          simp only [sampleAsked, List.mem_cons, List.not_mem_nil, or_false] at hy
          rcases hy with rfl | rfl <;> cases h
      refine ⟨by rw [← m2]; simp [hx.2, hz1, hz]; rfl, ?_⟩
      rw [m4, List.find?_eq_none.2, Option.map_none]
      intro y hy he
      refine hd.2.2 x.1.id (by simp) y.1.id (List.mem_map.2 ⟨y, hy, rfl⟩) ?_
      rw [hx.1]
      simp only [decide_eq_true_eq] at he
      rw [he]; rfl

/-- Beside C120_terminates: a client that has asked, a server that works. -/
example (checked : Bool) (kc ks : Kind) : ∃ w : Deal.World String String, w.client.outbox ≠ [] ∧ w.server.jobs ≠ [] ∧
    Acc (fun u v => ∃ a, a ≠ .ask ∧ a ≠ .say ∧ Deal.Step checked kc ks sampleWish0 v a u) w :=
  ⟨⟨{ outbox := [.shutdown (.i32 1)] }, { jobs := [(.workspaceReload (.i32 0), "reload")] }⟩, by simp, by simp,
    (C120_terminates checked kc ks sampleWish0).apply _⟩

end
end Bsp
