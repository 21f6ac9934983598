import Verif.Model.JoinWorld
import Verif.Props.Hostile
import Verif.Props.GroupTalk
/-
C105: groups whose distribution messages travel over pairwise sessions.  C03 and C78 together: what is exchanged in the groups depends on what was decrypted in the session.
-/
set_option linter.unusedSimpArgs false
namespace Verif
open Talk (Side Party Conv Note)
open GroupTalk (Room)
open JoinTalk (Meet)

/-- One event of a conversation. -/
theorem Inv.step1 {X : Setup} (hX : X.Ok) (hcl : X.clean) {w : World} {c : Conv} {es : Nat → Key32} {left : Nat} (h : Inv X w c es (left + 1)) (ev : Talk.Event)
    (hl : ∀ s t, ev = .say s t → t.length < 2 ^ 63) {o : Talk.Outcome} {c' : Conv} (ho : c.step ev = some (o, c')) :
    Matches o (w.step X.env X.addr ev).1 ∧ ∃ es', Inv X (w.step X.env X.addr ev).2 c' es' left := by
  cases ev with
  | say s text =>
    by_cases ht : (c.party s).turn = 0
    · simp [Talk.Conv.step, ht] at ho
    · obtain ⟨p, n, h1, h2⟩ := h.say hX s (hl s text rfl) ht
      have hstep : c.step (.say s text) = some (.said, c.said s text) := by simp only [Talk.Conv.step, if_neg ht]; rfl
      rw [hstep, Option.some.injEq, Prod.mk.injEq] at ho
      obtain ⟨rfl, rfl⟩ := ho
      simp only [World.step, h1]
      exact ⟨trivial, es, h2⟩
  | deliver i =>
    cases hn : c.notes[i]? with
    | none => simp [Talk.Conv.step, hn] at ho
    | some n =>
      obtain ⟨⟨sd, p⟩, hw, hp⟩ := all2_get h.wire hn
      have hsd : sd = n.sender := hp.side
      subst hsd
      have hd := h.deliver hX hp
      simp only [Talk.Conv.step, hn] at ho
      simp only [World.step, hw]
      cases hv : (c.party n.sender.peer).receive n.turn n.number with
      | forgotten => rw [hv] at ho; simp at ho
      | refused =>
        rw [hv] at ho hd
        simp only [Option.some.injEq, Prod.mk.injEq] at ho hd
        obtain ⟨rfl, rfl⟩ := ho
        obtain ⟨e, n', h1, h2⟩ := hd hcl
        rw [h1]
        exact ⟨trivial, es, h2⟩
      | accepted p' =>
        rw [hv] at ho hd
        simp only [Option.some.injEq, Prod.mk.injEq] at ho hd
        obtain ⟨rfl, rfl⟩ := ho
        obtain ⟨n', es', h1, h2⟩ := hd
        rw [h1]
        exact ⟨rfl, es', h2⟩

/-- Two conversations that differ only in the texts. -/
structure Like (c d : Conv) : Prop where
  alice : c.alice = d.alice
  bob : c.bob = d.bob
  notes : c.notes.map (fun n => (n.sender, n.turn, n.number)) = d.notes.map (fun n => (n.sender, n.turn, n.number))

theorem Like.party {c d : Conv} (h : Like c d) (s : Side) : c.party s = d.party s := by
  cases s
  · exact h.alice
  · exact h.bob

theorem Like.say {c d d' : Conv} (h : Like c d) {s : Side} {o : Talk.Outcome} (text : Bytes) (hs : d.step (.say s []) = some (o, d')) :
    c.step (.say s text) = some (.said, c.said s text) ∧ Like (c.said s text) d' := by
  by_cases ht : (c.party s).turn = 0
  · rw [h.party] at ht; simp [Talk.Conv.step, ht] at hs
  · refine ⟨by simp only [Talk.Conv.step, if_neg ht]; rfl, ?_⟩
    rw [h.party] at ht
    simp only [Talk.Conv.step, if_neg ht, Option.some.injEq, Prod.mk.injEq] at hs
    obtain ⟨-, rfl⟩ := hs
    have hp := h.party s
    refine ⟨?_, ?_, ?_⟩
    · cases s <;> simp [Talk.Conv.said, Talk.Conv.set, hp, h.alice]
    · cases s <;> simp [Talk.Conv.said, Talk.Conv.set, hp, h.bob]
    · simp [Talk.Conv.said, hp, h.notes]

theorem Like.get {c d : Conv} (h : Like c d) {i : Nat} {n' : Note} (hn : d.notes[i]? = some n') :
    ∃ n, c.notes[i]? = some n ∧ n.sender = n'.sender ∧ n.turn = n'.turn ∧ n.number = n'.number := by
  have : (c.notes.map (fun n => (n.sender, n.turn, n.number)))[i]? = some (n'.sender, n'.turn, n'.number) := by rw [h.notes]; simp [hn]
  simp only [List.getElem?_map, Option.map_eq_some_iff, Prod.mk.injEq] at this
  obtain ⟨n, h1, h2, h3, h4⟩ := this
  exact ⟨n, h1, h2, h3, h4⟩

theorem Like.set {c d : Conv} (h : Like c d) (s : Side) (p : Party) : Like (c.set s p) (d.set s p) := by
  cases s
  · exact ⟨rfl, h.bob, h.notes⟩
  · exact ⟨h.alice, rfl, h.notes⟩

theorem Like.deliver {c d d' : Conv} (h : Like c d) {i : Nat} {o : Talk.Outcome} (hs : d.step (.deliver i) = some (o, d')) :
    ∃ n n', c.notes[i]? = some n ∧ d.notes[i]? = some n' ∧ n.sender = n'.sender ∧
      ((o = .rejected ∧ c.step (.deliver i) = some (.rejected, c) ∧ d' = d) ∨
       (∃ c', o = .got n'.text ∧ c.step (.deliver i) = some (.got n.text, c') ∧ Like c' d' ∧ c'.notes = c.notes)) := by
  cases hn' : d.notes[i]? with
  | none => simp [Talk.Conv.step, hn'] at hs
  | some n' =>
    obtain ⟨n, hn, e1, e2, e3⟩ := h.get hn'
    refine ⟨n, n', hn, rfl, e1, ?_⟩
    simp only [Talk.Conv.step, hn'] at hs
    simp only [Talk.Conv.step, hn, h.party, e1, e2, e3]
    cases hv : (d.party n'.sender.peer).receive n'.turn n'.number with
    | forgotten => rw [hv] at hs; simp at hs
    | refused =>
      rw [hv] at hs
      simp only [Option.some.injEq, Prod.mk.injEq] at hs
      obtain ⟨rfl, rfl⟩ := hs
      exact .inl ⟨rfl, rfl, rfl⟩
    | accepted p =>
      rw [hv] at hs
      simp only [Option.some.injEq, Prod.mk.injEq] at hs
      obtain ⟨rfl, rfl⟩ := hs
      exact .inr ⟨_, rfl, rfl, h.set _ _, by cases n'.sender <;> rfl⟩

/-! ### The invariant -/

/-- What a pairwise message holds. -/
def MailIs (F : Framing) (addr : Side → Addr) (invites : List (SenderKeyName × Bytes)) (n : Note) : Bytes ⊕ Nat → Prop
  | .inl text => n.text = F.enc (.inl text)
  | .inr k => ∃ name b, invites[k]? = some (name, b) ∧ name.sender = addr n.sender ∧ n.text = F.enc (.inr (name.groupId, b))

structure JInv (X : Setup) (F : Framing) (C : Crypto) (S : Ser SKStruct) (T : Ser SKDStruct) (w : JWorld) (m : Meet Addr SenderKeyName) (left : Nat) : Prop where
  talk : ∃ c es, Inv X w.talk c es left ∧ Like c m.conv ∧ All2 (MailIs F X.addr w.rooms.invites) c.notes m.mail
  room : RoomInv C S T w.rooms m.room

theorem MailIs.mono {F : Framing} {addr : Side → Addr} {inv inv' : List (SenderKeyName × Bytes)} {n : Note} {x : Bytes ⊕ Nat} (h : MailIs F addr inv n x)
    (hm : ∃ l, inv' = inv ++ l) : MailIs F addr inv' n x := by
  obtain ⟨l, rfl⟩ := hm
  cases x with
  | inl t => exact h
  | inr k =>
    obtain ⟨name, b, h1, h2, h3⟩ := h
    refine ⟨name, b, ?_, h2, h3⟩
    have := (List.getElem?_eq_some_iff.1 h1).1
    rw [List.getElem?_append_left this, h1]

theorem GWorld.step_appends (C : Crypto) (S : Ser SKStruct) (T : Ser SKDStruct) (d : GroupDraws) (rand : Arr 64) (w : GWorld) (e : GroupTalk.Event Addr SenderKeyName) :
    ∃ l, (w.step C S T d rand e).2.invites = w.invites ++ l := by
  cases e with
  | invite n =>
    simp only [GWorld.step]
    generalize (GStore.create C d (w.store n.sender) n).1.bind _ = r
    cases r with
    | ok b => exact ⟨_, rfl⟩
    | err e => exact ⟨[], by simp [GWorld.put]⟩
    | panic => exact ⟨[], by simp [GWorld.put]⟩
  | accept who i =>
    refine ⟨[], ?_⟩
    simp only [GWorld.step, List.append_nil]
    split
    · rfl
    · split <;> rfl
  | say n text =>
    refine ⟨[], ?_⟩
    simp only [GWorld.step, List.append_nil]
    split <;> rfl
  | deliver who i =>
    refine ⟨[], ?_⟩
    simp only [GWorld.step, List.append_nil]
    split <;> rfl
  | noise who n b => exact ⟨[], by simp [GWorld.step, GWorld.put]⟩

theorem JWorld.step_appends (F : Framing) (env : Side → Env) (addr : Side → Addr) (C : Crypto) (S : Ser SKStruct) (T : Ser SKDStruct) (d : GroupDraws) (rand : Arr 64) (w : JWorld)
    (e : JoinTalk.Event Addr SenderKeyName) : ∃ l, (w.step F env addr C S T d rand e).2.rooms.invites = w.rooms.invites ++ l := by
  cases e with
  | say s text =>
    refine ⟨[], ?_⟩
    simp only [JWorld.step, List.append_nil]
    split <;> rfl
  | invite s n =>
    simp only [JWorld.step]
    split
    · split
      · exact ⟨_, rfl⟩
      · exact ⟨_, rfl⟩
    · exact ⟨[], by simp [GWorld.put]⟩
    · exact ⟨[], by simp [GWorld.put]⟩
  | deliver i =>
    refine ⟨[], ?_⟩
    simp only [JWorld.step, List.append_nil]
    split
    · split
      · rfl
      · split <;> rfl
      · rfl
    · rfl
    · rfl
  | group e => exact GWorld.step_appends C S T d rand w.rooms e

theorem JWorld.run_invites (F : Framing) (env : Side → Env) (addr : Side → Addr) (C : Crypto) (S : Ser SKStruct) (T : Ser SKDStruct) (draws : Nat → GroupDraws) (rand : Nat → Arr 64)
    (evs : List (JoinTalk.Event Addr SenderKeyName)) (t : Nat) (w : JWorld) {x : SenderKeyName × Bytes} (hx : x ∈ w.rooms.invites) :
    x ∈ (w.run F env addr C S T draws rand t evs).2.rooms.invites := by
  induction evs generalizing t w with
  | nil => exact hx
  | cons e es ih =>
    refine ih _ _ ?_
    obtain ⟨l, hl⟩ := JWorld.step_appends F env addr C S T (draws t) (rand t) w e
    rw [hl]
    exact List.mem_append_left _ hx

/-- Each outcome is what the specification asks for. -/
def JMatches : JoinTalk.Outcome → JOut → Prop
  | .said, o => o = .said (.ok ())
  | .got text, o => o = .heard (.ok text)
  | .joined, o => o = .joined (.ok ())
  | .rejected, o => ∃ e, o = .heard (.err e)
  | .group g, o => ∃ x, o = .group x ∧ GOut.Is g x

theorem matches_said {o : Out} (h : Matches .said o) : o = .said (.ok ()) := by
  cases o with
  | said r => cases r with
    | ok u => rfl
    | err e => exact h.elim
    | panic => exact h.elim
  | heard r => exact h.elim
  | nothing => exact h.elim
theorem matches_got {t : Bytes} {o : Out} (h : Matches (.got t) o) : o = .heard (.ok t) := by
  cases o with
  | heard r => cases r with
    | ok u => have h : u = t := h; rw [h]
    | err e => exact h.elim
    | panic => exact h.elim
  | said r => exact h.elim
  | nothing => exact h.elim
theorem matches_rejected {o : Out} (h : Matches .rejected o) : ∃ e, o = .heard (.err e) := by
  cases o with
  | heard r => cases r with
    | ok u => exact h.elim
    | err e => exact ⟨e, rfl⟩
    | panic => exact h.elim
  | said r => exact h.elim
  | nothing => exact h.elim

section
variable {X : Setup} {F : Framing} {C : Crypto} {S : Ser SKStruct} {T : Ser SKDStruct} {w : JWorld} {m m' : Meet Addr SenderKeyName} {left : Nat} {o : JoinTalk.Outcome}
  {d : GroupDraws} {rand : Arr 64}

theorem JInv.say (hX : X.Ok) (hcl : X.clean) (h : JInv X F C S T w m (left + 1)) {s : Side} {text : Bytes} (hl : (F.enc (.inl text)).length < 2 ^ 63)
    (hs : m.step X.addr SenderKeyName.sender (.say s text) = some (o, m')) :
    JMatches o (w.step F X.env X.addr C S T d rand (.say s text)).1 ∧ JInv X F C S T (w.step F X.env X.addr C S T d rand (.say s text)).2 m' left := by
  obtain ⟨c, es, hi, hlk, hm⟩ := h.talk
  simp only [JoinTalk.Meet.step] at hs
  cases hc : m.conv.step (.say s []) with
  | none => simp [hc] at hs
  | some x =>
    obtain ⟨o1, c1⟩ := x
    simp only [hc, Option.some.injEq, Prod.mk.injEq] at hs
    obtain ⟨rfl, rfl⟩ := hs
    obtain ⟨k1, k2⟩ := hlk.say (F.enc (.inl text)) hc
    obtain ⟨r1, es', r2⟩ := hi.step1 hX hcl (.say s (F.enc (.inl text))) (by intro s t ht; simp only [Talk.Event.say.injEq] at ht; rw [← ht.2]; exact hl) k1
    have r1 := matches_said r1
    simp only [JWorld.step]
    generalize w.talk.step X.env X.addr (.say s (F.enc (.inl text))) = y at r1 r2
    obtain ⟨y1, y2⟩ := y
    simp only at r1 r2
    subst r1
    exact ⟨rfl, ⟨_, es', r2, k2, all2_snoc hm rfl⟩, h.room⟩

theorem JInv.invite (hX : X.Ok) (hcl : X.clean) (hT : StdSKD T) (hd : d.signing ≠ none) (h : JInv X F C S T w m (left + 1)) {s : Side} {n : SenderKeyName}
    (hl : ∀ x ∈ (w.step F X.env X.addr C S T d rand (.invite s n)).2.rooms.invites, (F.enc (.inr (x.1.groupId, x.2))).length < 2 ^ 63)
    (hs : m.step X.addr SenderKeyName.sender (.invite s n) = some (o, m')) :
    JMatches o (w.step F X.env X.addr C S T d rand (.invite s n)).1 ∧ JInv X F C S T (w.step F X.env X.addr C S T d rand (.invite s n)).2 m' left := by
  obtain ⟨c, es, hi, hlk, hm⟩ := h.talk
  simp only [JoinTalk.Meet.step] at hs
  by_cases hown : n.sender = X.addr s
  case neg => rw [if_neg hown] at hs; simp at hs
  rw [if_pos hown] at hs
  cases hc : m.conv.step (.say s []) with
  | none => simp [hc] at hs
  | some x =>
    obtain ⟨o1, c1⟩ := x
    cases hr : m.room.step SenderKeyName.sender (.invite n) with
    | none => simp [hc, hr] at hs
    | some y =>
      obtain ⟨o2, r⟩ := y
      simp only [hc, hr, Option.some.injEq, Prod.mk.injEq] at hs
      obtain ⟨rfl, rfl⟩ := hs
      obtain ⟨g1, g2⟩ := h.room.invite hT hd (rand := rand) hr
      have ho2 : o2 = .done := by simp only [Room.step, Option.some.injEq, Prod.mk.injEq] at hr; exact hr.1.symm
      subst ho2
      simp only [GOut.Is, GWorld.step] at g1 g2
      simp only [JWorld.step] at hl ⊢
      generalize hb : (GStore.create C d (w.rooms.store n.sender) n).1.bind (fun m => m.serialize T) = res at g1 g2 hl ⊢
      cases res with
      | err e => simp at g1
      | panic => simp at g1
      | ok b =>
        simp only at g1 g2 hl ⊢
        obtain ⟨k1, k2⟩ := hlk.say (F.enc (.inr (n.groupId, b))) hc
        have hl' : (F.enc (.inr (n.groupId, b))).length < 2 ^ 63 := by
          refine hl (n, b) ?_
          split <;> simp
        obtain ⟨r1, es', r2⟩ := hi.step1 hX hcl (.say s (F.enc (.inr (n.groupId, b)))) (by intro s t ht; simp only [Talk.Event.say.injEq] at ht; rw [← ht.2]; exact hl') k1
        have r1 := matches_said r1
        generalize w.talk.step X.env X.addr (.say s (F.enc (.inr (n.groupId, b)))) = y at r1 r2
        obtain ⟨y1, y2⟩ := y
        simp only at r1 r2
        subst r1
        refine ⟨rfl, ⟨_, es', r2, k2, all2_snoc (all2_imp_mem hm fun a x _ hx => hx.mono ⟨_, rfl⟩) ?_⟩, g2⟩
        refine ⟨n, b, ?_, hown, rfl⟩
        have hlen : m.room.invites.length = w.rooms.invites.length := by
          have := congrArg List.length h.room.invites
          simpa using this.symm
        rw [hlen]
        simp

theorem JInv.deliver (hX : X.Ok) (hcl : X.clean) (h : JInv X F C S T w m (left + 1)) {i : Nat}
    (hs : m.step X.addr SenderKeyName.sender (.deliver i) = some (o, m')) :
    JMatches o (w.step F X.env X.addr C S T d rand (.deliver i)).1 ∧ JInv X F C S T (w.step F X.env X.addr C S T d rand (.deliver i)).2 m' left := by
  obtain ⟨c, es, hi, hlk, hm⟩ := h.talk
  simp only [JoinTalk.Meet.step] at hs
  cases hc : m.conv.step (.deliver i) with
  | none => simp [hc] at hs
  | some x =>
    obtain ⟨o1, c1⟩ := x
    obtain ⟨n, n', hn, hn', hsd, hcase⟩ := hlk.deliver hc
    cases hml : m.mail[i]? with
    | none => simp [hc, hn', hml] at hs
    | some x =>
      obtain ⟨n0, hn0, hmi⟩ := all2_get hm hml
      rw [hn, Option.some.injEq] at hn0
      subst hn0
      obtain ⟨⟨sd, p⟩, hw, hp⟩ := all2_get hi.wire hn
      have hsd' : sd = n.sender := hp.side
      subst hsd'
      rcases hcase with ⟨rfl, k1, rfl⟩ | ⟨c', rfl, k1, k2, k3⟩
      · obtain ⟨r1, es', r2⟩ := hi.step1 hX hcl (.deliver i) (by simp) k1
        obtain ⟨e, r1⟩ := matches_rejected r1
        have hs : some (JoinTalk.Outcome.rejected, m) = some (o, m') := by
          rw [← hs]
          simp only [hc, hn', hml]
        simp only [Option.some.injEq, Prod.mk.injEq] at hs
        obtain ⟨rfl, rfl⟩ := hs
        simp only [JWorld.step, hw]
        generalize w.talk.step X.env X.addr (.deliver i) = y at r1 r2
        obtain ⟨y1, y2⟩ := y
        simp only at r1 r2
        subst r1
        exact ⟨⟨e, rfl⟩, ⟨_, es', r2, hlk, hm⟩, h.room⟩
      · obtain ⟨r1, es', r2⟩ := hi.step1 hX hcl (.deliver i) (by simp) k1
        have r1 := matches_got r1
        simp only [JWorld.step, hw]
        generalize w.talk.step X.env X.addr (.deliver i) = y at r1 r2
        obtain ⟨y1, y2⟩ := y
        simp only at r1 r2
        subst r1
        simp only [hc, hn', hml] at hs
        cases x with
        | inl text =>
          simp only [Option.some.injEq, Prod.mk.injEq] at hs
          obtain ⟨rfl, rfl⟩ := hs
          have hmi : n.text = F.enc (.inl text) := hmi
          simp only [hmi, F.law]
          exact ⟨rfl, ⟨_, es', r2, k2, by rw [k3]; exact hm⟩, h.room⟩
        | inr k =>
          obtain ⟨name, b, hi1, hi2, hi3⟩ := hmi
          simp only at hs
          cases hr : m.room.step SenderKeyName.sender (.accept (X.addr n'.sender.peer) k) with
          | none => simp [hr] at hs
          | some y =>
            obtain ⟨o2, r⟩ := y
            simp only [hr, Option.some.injEq, Prod.mk.injEq] at hs
            obtain ⟨rfl, rfl⟩ := hs
            obtain ⟨g1, g2⟩ := h.room.accept (d := d) (rand := rand) hr
            have ho2 : o2 = .done := by
              simp only [Room.step] at hr
              repeat' split at hr
              all_goals first
                | (simp only [Option.some.injEq, Prod.mk.injEq] at hr; exact hr.1.symm)
                | simp at hr
            subst ho2
            simp only [GOut.Is, GWorld.step, hi1] at g1 g2
            simp only [hi3, F.law]
            have hname : (⟨name.groupId, X.addr n.sender⟩ : SenderKeyName) = name := by rw [← hi2]
            rw [hname, hsd]
            cases hb : newSKDMFromBytes T b with
            | err e => rw [hb] at g1; simp at g1
            | panic => rw [hb] at g1; simp at g1
            | ok sk =>
              rw [hb] at g1 g2
              simp only [GOut.done.injEq] at g1 g2 ⊢
              exact ⟨by rw [g1]; rfl, ⟨_, es', r2, k2, by rw [k3]; exact hm⟩, g2⟩

theorem JInv.group (hSer : StdSK S) (hT : StdSKD T) (hA : C.AesLaw) (hS : C.SigLaw) (hd : d.signing ≠ none) (h : JInv X F C S T w m (left + 1)) {e : GroupTalk.Event Addr SenderKeyName}
    (hlen : ∀ n text, e = .say n text → text.length < 2 ^ 63)
    (hnoise : ∀ who n b, e = .noise who n b → ∀ x ∈ w.rooms.invites, x.1 = n → ∀ m, newSKDMFromBytes T x.2 = .ok m → NotSignedBy C S m.id m.signatureKey b)
    (hs : m.step X.addr SenderKeyName.sender (.group e) = some (o, m')) :
    JMatches o (w.step F X.env X.addr C S T d rand (.group e)).1 ∧ JInv X F C S T (w.step F X.env X.addr C S T d rand (.group e)).2 m' left := by
  obtain ⟨c, es, hi, hlk, hm⟩ := h.talk
  simp only [JoinTalk.Meet.step] at hs
  cases hr : m.room.step SenderKeyName.sender e with
  | none => simp [hr] at hs
  | some y =>
    obtain ⟨o2, r⟩ := y
    simp only [hr, Option.some.injEq, Prod.mk.injEq] at hs
    obtain ⟨rfl, rfl⟩ := hs
    have step : GOut.Is o2 (w.rooms.step C S T d rand e).1 ∧ RoomInv C S T (w.rooms.step C S T d rand e).2 r := by
      cases e with
      | invite n => exact h.room.invite hT hd hr
      | accept who i => exact h.room.accept hr
      | say n text => exact h.room.say hSer hS (hlen n text rfl) hr
      | deliver who i => exact h.room.deliver hA hr
      | noise who n b => exact h.room.noise (hnoise who n b rfl) hr
    refine ⟨⟨_, rfl, step.1⟩, ⟨c, es, Inv.weaken hi (by omega), hlk, all2_imp_mem hm fun a x _ hx => hx.mono (GWorld.step_appends C S T d rand w.rooms e)⟩, step.2⟩

end

theorem JInv.run {X : Setup} {F : Framing} {C : Crypto} {S : Ser SKStruct} {T : Ser SKDStruct} (hX : X.Ok) (hcl : X.clean) (hSer : StdSK S) (hT : StdSKD T) (hA : C.AesLaw) (hS : C.SigLaw)
    (draws : Nat → GroupDraws) (hd : ∀ t, (draws t).signing ≠ none) (rand : Nat → Arr 64) (evs : List (JoinTalk.Event Addr SenderKeyName)) (t : Nat) (w : JWorld)
    (m : Meet Addr SenderKeyName) (h : JInv X F C S T w m evs.length)
    (hsay : ∀ s text, JoinTalk.Event.say s text ∈ evs → (F.enc (.inl text)).length < 2 ^ 63)
    (hinv : ∀ x ∈ (w.run F X.env X.addr C S T draws rand t evs).2.rooms.invites, (F.enc (.inr (x.1.groupId, x.2))).length < 2 ^ 63)
    (hpost : ∀ n text, JoinTalk.Event.group (.say n text) ∈ evs → text.length < 2 ^ 63)
    (hnoise : ∀ who n b, JoinTalk.Event.group (.noise who n b) ∈ evs → ∀ x ∈ (w.run F X.env X.addr C S T draws rand t evs).2.rooms.invites, x.1 = n → ∀ m, newSKDMFromBytes T x.2 = .ok m →
      NotSignedBy C S m.id m.signatureKey b)
    (outs : List JoinTalk.Outcome) (ho : m.run X.addr SenderKeyName.sender evs = some outs) : All2 JMatches outs (w.run F X.env X.addr C S T draws rand t evs).1 := by
  induction evs generalizing t w m outs with
  | nil =>
    simp only [JoinTalk.Meet.run, Option.some.injEq] at ho
    subst ho
    exact .nil
  | cons e es ih =>
    simp only [JoinTalk.Meet.run] at ho
    cases hs : m.step X.addr SenderKeyName.sender e with
    | none => simp [hs] at ho
    | some x =>
      obtain ⟨o, m'⟩ := x
      simp only [hs, Option.map_eq_some_iff] at ho
      obtain ⟨os, hr, rfl⟩ := ho
      have later : ∀ x ∈ (w.step F X.env X.addr C S T (draws t) (rand t) e).2.rooms.invites, x ∈ (w.run F X.env X.addr C S T draws rand t (e :: es)).2.rooms.invites :=
        fun x hx => JWorld.run_invites F X.env X.addr C S T draws rand es (t + 1) _ hx
      have step : JMatches o (w.step F X.env X.addr C S T (draws t) (rand t) e).1 ∧ JInv X F C S T (w.step F X.env X.addr C S T (draws t) (rand t) e).2 m' es.length := by
        simp only [List.length_cons] at h
        cases e with
        | say s text => exact h.say hX hcl (hsay s text List.mem_cons_self) hs
        | invite s n => exact h.invite hX hcl hT (hd t) (fun x hx => hinv x (later x hx)) hs
        | deliver i => exact h.deliver hX hcl hs
        | group e =>
          refine h.group hSer hT hA hS (hd t) (fun n text he => hpost n text (by rw [← he]; exact List.mem_cons_self)) ?_ hs
          intro who n b he x hx
          refine hnoise who n b (by rw [← he]; exact List.mem_cons_self) x ?_
          exact JWorld.run_invites F X.env X.addr C S T draws rand (.group e :: es) t w hx
      exact .cons step.1 (ih (t + 1) _ m' step.2 (fun s text hm => hsay s text (List.mem_cons_of_mem _ hm)) hinv
        (fun n text hm => hpost n text (List.mem_cons_of_mem _ hm)) (fun who n b hm => hnoise who n b (List.mem_cons_of_mem _ hm)) os hr)

/-- **C105.** Alice has processed Bob's bundle, neither had a session with the other, and nothing has happened in the groups.  From then on anything may happen: they send each other texts and
invitations to their lines in any groups; the network delivers any pairwise message any number of times in any order, and an invitation that is decrypted is processed; they and any other members
write and process distribution messages, send and receive group messages in any order and any number of times, and receive forgeries.  Every call ends as the specification (Spec/JoinTalk) says:
in particular whoever received an invitation over the session reads that sender's group messages from then on, each once. -/
theorem C105_groups_over_sessions {C : Crypto} (hdh : C.DhLaw) (haes : C.AesLaw) (hsig : C.SigLaw) (F : Framing) (S : Ser SKStruct) (hSer : StdSK S) (T : Ser SKDStruct) (hT : StdSKD T)
    {A B : Env} {addrA addrB : Addr} {stA stB stA' : Store} {posA posB posA' : Nat} {b : Bundle} {spk ot : IdKeyPair}
    (evs : List (JoinTalk.Event Addr SenderKeyName)) (h : Meeting C A B addrA addrB stA stB stA' posA posB posA' b spk ot evs.length) (hn : evs.length < 2 ^ 32)
    (g : GWorld) (hg : (∀ who n, (g.store who).load n = .ok none) ∧ g.invites = [] ∧ g.wire = [])
    (draws : Nat → GroupDraws) (hd : ∀ t, (draws t).signing ≠ none) (rand : Nat → Arr 64)
    (hsay : ∀ s text, JoinTalk.Event.say s text ∈ evs → (F.enc (.inl text)).length < 2 ^ 63)
    (hpost : ∀ n text, JoinTalk.Event.group (.say n text) ∈ evs → text.length < 2 ^ 63)
    (w : JWorld) (hw : w = ⟨⟨sides ⟨stA', posA'⟩ ⟨stB, posB⟩, []⟩, g⟩)
    (hinv : ∀ x ∈ (w.run F (sides A B) (sides addrA addrB) C S T draws rand 0 evs).2.rooms.invites, (F.enc (.inr (x.1.groupId, x.2))).length < 2 ^ 63)
    (hnoise : ∀ who n b, JoinTalk.Event.group (.noise who n b) ∈ evs → ∀ x ∈ (w.run F (sides A B) (sides addrA addrB) C S T draws rand 0 evs).2.rooms.invites, x.1 = n →
      ∀ m, newSKDMFromBytes T x.2 = .ok m → NotSignedBy C S m.id m.signatureKey b)
    (outs : List JoinTalk.Outcome) (ho : Meet.start.run (sides addrA addrB) SenderKeyName.sender evs = some outs) :
    All2 JMatches outs (w.run F (sides A B) (sides addrA addrB) C S T draws rand 0 evs).1 := by
  obtain ⟨X, es, hX, h1, h2, -, hcl, -, hi⟩ := h.inv hdh haes hn
  have hj : JInv X F C S T w Meet.start evs.length := by
    rw [hw]
    refine ⟨⟨_, es, hi, ⟨rfl, rfl, rfl⟩, .nil⟩, ?_, ?_, ?_⟩
    · rw [hg.2.1]; rfl
    · rw [hg.2.2]; rfl
    · intro n
      exact ⟨rfl, fun who => ⟨hg.1 who n, rfl⟩, fun i c => by simp [JoinTalk.Meet.start, Room.start], fun i c text => by simp [JoinTalk.Meet.start, Room.start]⟩
  rw [← h1, ← h2] at hinv hnoise ⊢
  rw [← h2] at ho
  exact hj.run hX hcl hSer hT haes hsig draws hd rand evs 0 w _ hsay hinv hpost hnoise outs ho

/-! ### A framing, and a concrete case -/

/-- The characters of a group's name, each as a run of ones. -/
def frameChars : List Char → Bytes
  | [] => [0]
  | c :: cs => List.replicate (c.toNat + 1) 1 ++ 0 :: frameChars cs

/-- Reading runs of ones back: `k` ones read so far. -/
def unframeChars : Nat → List Char → Bytes → Option (List Char × Bytes)
  | _, _, [] => none
  | k, cs, b :: rest =>
    if b = 1 then unframeChars (k + 1) cs rest
    else if k = 0 then some (cs.reverse, rest)
    else unframeChars 0 (Char.ofNat (k - 1) :: cs) rest

theorem unframe_run (n k : Nat) (cs : List Char) (rest : Bytes) : unframeChars k cs (List.replicate n 1 ++ rest) = unframeChars (k + n) cs rest := by
  induction n generalizing k with
  | zero => simp
  | succ n ih =>
    rw [List.replicate_succ, List.cons_append, unframeChars, if_pos rfl, ih]
    congr 1
    omega

theorem unframe_frame (l acc : List Char) (b : Bytes) : unframeChars 0 acc (frameChars l ++ b) = some (acc.reverse ++ l, b) := by
  induction l generalizing acc with
  | nil => simp [frameChars, unframeChars]
  | cons c l ih =>
    rw [frameChars, List.append_assoc, unframe_run, List.cons_append, unframeChars, if_neg (by decide), if_neg (by omega), ih]
    have : Char.ofNat (0 + (c.toNat + 1) - 1) = c := by simp
    rw [this]
    simp

/-- A framing: a mark, then the text, or the group's name and the distribution message. -/
def framing : Framing where
  enc
    | .inl text => 0 :: text
    | .inr (g, b) => 1 :: (frameChars g.toList ++ b)
  dec
    | 0 :: text => some (.inl text)
    | 1 :: rest => (unframeChars 0 [] rest).map fun x => .inr (String.ofList x.1, x.2)
    | _ => none
  law x := by
    cases x with
    | inl t => rfl
    | inr p => simp [unframe_frame]

section
open Toy

def jLine : SenderKeyName := ⟨"x", Toy.alice⟩
def jLineB : SenderKeyName := ⟨"x", Toy.bob⟩
/-- Alice invites Bob and talks; Bob gets her second pairwise message first, joins, reads the group messages out of order, invites her in turn, and gets a replay. -/
def jEvents : List (JoinTalk.Event Addr SenderKeyName) :=
  [.invite .alice jLine, .say .alice [7], .group (.say jLine [1]), .group (.say jLine [2]), .deliver 1, .deliver 0, .group (.deliver Toy.bob 1), .group (.deliver Toy.bob 0),
   .invite .bob jLineB, .deliver 2, .group (.say jLineB [3, 4]), .group (.deliver Toy.alice 2), .deliver 0, .group (.deliver Toy.bob 0), .say .bob [9]]
def jOuts : List JoinTalk.Outcome :=
  [.said, .said, .group .done, .group .done, .got [7], .joined, .group (.got [2]), .group (.got [1]), .said, .joined, .group .done, .group (.got [3, 4]), .rejected,
   .group .rejected, .said]

theorem j_spec : Meet.start.run (sides Toy.alice Toy.bob) SenderKeyName.sender jEvents = some jOuts := by decide +kernel

def jWorld : JWorld := ⟨⟨sides ⟨alice1, 2⟩ ⟨bobStore, 0⟩, []⟩, gwWorld⟩

set_option maxRecDepth 100000 in
/-- Non-vacuity of C105: the hypotheses hold of these users and this schedule. -/
example : All2 JMatches jOuts (jWorld.run framing (sides aliceEnv bobEnv) (sides Toy.alice Toy.bob) Toy.C protoSK protoSKD gwDraws (fun _ => gRand) 0 jEvents).1 := by
  refine C105_groups_over_sessions dhLaw aesLaw sigLaw framing protoSK (.inl rfl) protoSKD (.inl rfl) jEvents toy_meeting (by decide) gwWorld ⟨fun _ _ => rfl, rfl, rfl⟩
    gwDraws (fun _ => by simp [gwDraws, gDraws]) (fun _ => gRand) ?_ ?_ jWorld rfl ?_ ?_ jOuts j_spec
  · intro s text h
    simp [jEvents] at h
    rcases h with ⟨-, rfl⟩ | ⟨-, rfl⟩ <;> simp [framing]
  · intro n text h
    simp [jEvents] at h
    rcases h with ⟨-, rfl⟩ | ⟨-, rfl⟩ | ⟨-, rfl⟩ <;> simp
  · have key : ((jWorld.run framing (sides aliceEnv bobEnv) (sides Toy.alice Toy.bob) Toy.C protoSK protoSKD gwDraws (fun _ => gRand) 0 jEvents).2.rooms.invites).all
        (fun x => decide ((framing.enc (.inr (x.1.groupId, x.2))).length < 1000)) = true := by decide +kernel
    intro x hx
    have := List.all_eq_true.1 key x hx
    simp only [decide_eq_true_eq] at this
    omega
  · intro who n b h
    simp [jEvents] at h
end

end Verif
