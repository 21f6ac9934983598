import Verif.Proofs.Symbolic
/- Symbolic authenticity: tags made with message keys do not help an attacker who does not hold the session's secrets. -/
namespace Verif.Sym
open Schedule

/-- The MAC key of some message. -/
def IsMac (k : Term) : Prop := ∃ ck, k = (msg ck).mac

/-- No part of the term is keyed with the MAC key of a message. -/
def NoSeal : Term → Prop
  | .atom _ _ => True
  | .pub _ => True
  | .hash k m => NoSeal k ∧ NoSeal m ∧ ¬ IsMac k
  | .cat a b => NoSeal a ∧ NoSeal b

/-- What an attacker may learn: he gets what does not contain the secret `a`, and tags from `S`. -/
def Open (a : Term) (S : Term → Bytes → Prop) : Term → Prop
  | .atom l v => .atom l v ≠ a
  | .pub _ => True
  | .hash k m => (∃ c, m = .pub c ∧ S k c) ∨ (Open a S k ∧ Open a S m)
  | .cat x y => Open a S x ∧ Open a S y

theorem open_of_not_mentions {a : Term} {S : Term → Bytes → Prop} : ∀ {t : Term}, ¬ t.mentions a → Open a S t
  | .atom _ _, h => fun e => h (by simp [Term.mentions, e])
  | .pub _, _ => trivial
  | .hash _ _, h => .inr ⟨open_of_not_mentions fun g => h (.inl g), open_of_not_mentions fun g => h (.inr g)⟩
  | .cat _ _, h => ⟨open_of_not_mentions fun g => h (.inl g), open_of_not_mentions fun g => h (.inr g)⟩

theorem knows_open {a : Term} {S : Term → Bytes → Prop} {t : Term} (h : Knows (Seen a S) t) : Open a S t := by
  induction h with
  | given hk =>
    rcases hk with hk | ⟨k, c, hs, rfl⟩
    · exact open_of_not_mentions hk
    · exact .inl ⟨c, rfl, hs⟩
  | pub v => trivial
  | hash _ _ h1 h2 => exact .inr ⟨h1, h2⟩
  | cat _ _ h1 h2 => exact ⟨h1, h2⟩
  | fst _ h => exact h.1
  | snd _ h => exact h.2

theorem not_open {a : Term} {S : Term → Bytes → Prop} (ha : ∃ l v, a = .atom l v) (hS : ∀ k c, S k c → IsMac k) :
    ∀ {t : Term}, NoSeal t → t.mentions a → ¬ Open a S t
  | .atom _ _, _, hm => fun ho => ho (by simpa [Term.mentions] using hm.symm)
  | .pub _, _, hm => hm.elim
  | .hash k m, hn, hm => by
    rintro (⟨c, -, hs⟩ | ⟨h1, h2⟩)
    · exact hn.2.2 (hS k c hs)
    · rcases hm with hm | hm
      · exact not_open ha hS hn.1 hm h1
      · exact not_open ha hS hn.2.1 hm h2
  | .cat x y, hn, hm => by
    rintro ⟨h1, h2⟩
    rcases hm with hm | hm
    · exact not_open ha hS hn.1 hm h1
    · exact not_open ha hS hn.2 hm h2

/-- A tag under a key that contains the secret is known only if it was made by someone who holds the key. -/
theorem no_forgery {a : Term} {S : Term → Bytes → Prop} (ha : ∃ l v, a = .atom l v) (hS : ∀ k c, S k c → IsMac k) {k : Term} {c : Bytes}
    (hn : NoSeal k) (hm : k.mentions a) (h : Knows (Seen a S) (.hash k (.pub c))) : S k c := by
  rcases knows_open h with ⟨c', hc, hs⟩ | ⟨h1, -⟩
  · cases hc; exact hs
  · exact absurd h1 (not_open ha hS hn hm)

theorem not_seen {a : Term} {S : Term → Bytes → Prop} (ha : ∃ l v, a = .atom l v) (hS : ∀ k c, S k c → IsMac k) {t : Term}
    (hn : NoSeal t) (hm : t.mentions a) : ¬ Knows (Seen a S) t := fun h => not_open ha hS hn hm (knows_open h)

/-! ### The keys of a session -/

/-- Chain keys: as they come out of X3DH, of a root step or of a chain step. -/
def ChainShape (t : Term) : Prop := (∃ p, t = T2 p (ascii "WhisperRatchet")) ∨ (∃ p, t = T2 p (ascii "WhisperText")) ∨ ∃ ck, t = next ck

theorem ascii_snoc_ne {a b : String} (h : ascii a ≠ ascii b) (n : UInt8) : ascii a ++ [n] ≠ ascii b ++ [n] := fun e => h (List.append_cancel_right e)

theorem ChainShape.not_mac {t : Term} (h : ChainShape t) : ¬ IsMac t := by
  rintro ⟨ck, e⟩
  rcases h with ⟨p, rfl⟩ | ⟨p, rfl⟩ | ⟨c, rfl⟩
  · simp only [T2, msg, Term.hash.injEq, Term.cat.injEq, Term.pub.injEq] at e
    exact absurd e.2.2 (by decide)
  · simp only [T2, msg, Term.hash.injEq, Term.cat.injEq, Term.pub.injEq] at e
    exact absurd e.2.2 (by decide)
  · simp [next, T2, msg] at e

/-- A pseudo-random key: the last part is no pair made of a hash and a public value, as in a MAC key. -/
theorem T1_not_mac (p : Term) (i : Bytes) : ¬ IsMac (T1 p i) := by
  rintro ⟨ck, e⟩; simp [T1, T2, msg] at e

theorem noSeal_T {p : Term} (hp : NoSeal p) (hm : ¬ IsMac p) (i : Bytes) : NoSeal (T1 p i) ∧ NoSeal (T2 p i) ∧ NoSeal (T3 p i) := by
  have h1 : NoSeal (T1 p i) := ⟨hp, trivial, hm⟩
  have h2 : NoSeal (T2 p i) := ⟨hp, ⟨h1, trivial⟩, hm⟩
  exact ⟨h1, h2, ⟨hp, ⟨h2, trivial⟩, hm⟩⟩

theorem pub_not_mac (v : Bytes) : ¬ IsMac (.pub v) := by rintro ⟨ck, e⟩; simp [T2, msg] at e

theorem noSeal_dh (U : Bytes → Prop) (v : Bytes) : NoSeal (dhTerm U v) := by unfold dhTerm; split <;> trivial

theorem hash_dh_not_mac (r : Term) (U : Bytes → Prop) (v : Bytes) : ¬ IsMac (.hash r (dhTerm U v)) := by
  rintro ⟨ck, e⟩
  unfold dhTerm at e
  split at e <;> simp [T2, msg] at e

theorem noSeal_next {ck : Term} (h : NoSeal ck) (hs : ChainShape ck) : NoSeal (next ck) := ⟨h, trivial, hs.not_mac⟩

theorem noSeal_msg {ck : Term} (h : NoSeal ck) (hs : ChainShape ck) : NoSeal (msg ck).cipher ∧ NoSeal (msg ck).mac ∧ NoSeal (msg ck).iv := by
  have h1 : NoSeal (msgPrk ck) := ⟨trivial, ⟨h, trivial, hs.not_mac⟩, pub_not_mac _⟩
  have h2 : ¬ IsMac (msgPrk ck) := by rintro ⟨c, e⟩; simp [msgPrk, T2, msg] at e
  exact noSeal_T h1 h2 _

theorem noSeal_root {r : Term} (h : NoSeal r) (hm : ¬ IsMac r) (U : Bytes → Prop) (v : Bytes) :
    NoSeal (rootOf r (dhTerm U v)) ∧ NoSeal (chainOf r (dhTerm U v)) := by
  have h1 : NoSeal (.hash r (dhTerm U v)) := ⟨h, noSeal_dh U v, hm⟩
  have := noSeal_T h1 (hash_dh_not_mac r U v) (ascii "WhisperRatchet")
  exact ⟨this.1, this.2.1⟩

theorem noSeal_foldl (l : List Term) (t : Term) (ht : NoSeal t) (hl : ∀ x ∈ l, NoSeal x) : NoSeal (l.foldl .cat t) := by
  induction l generalizing t with
  | nil => exact ht
  | cons y l ih => exact ih _ ⟨ht, hl y List.mem_cons_self⟩ fun x hx => hl x (List.mem_cons_of_mem _ hx)

theorem noSeal_x3dh {D : List Term} (h : ∀ x ∈ D, NoSeal x) : NoSeal (x3dhRoot D) ∧ NoSeal (x3dhChain D) := by
  have h1 : NoSeal (x3dhPrk D) := ⟨trivial, noSeal_foldl _ _ trivial h, pub_not_mac _⟩
  have h2 : ¬ IsMac (x3dhPrk D) := by rintro ⟨c, e⟩; simp [x3dhPrk, T2, msg, msgPrk] at e
  have := noSeal_T h1 h2 (ascii "WhisperText")
  exact ⟨this.1, this.2.1⟩

/-- A message key that comes from a chain of the session. -/
def FromChain (k : MsgTerms) : Prop := ∃ ck, NoSeal ck ∧ ChainShape ck ∧ k = msg ck

/-- The keys of a session state have the shapes they get from the key schedule. -/
structure Kempt (s : State) : Prop where
  root : NoSeal s.root ∧ ¬ IsMac s.root
  send : NoSeal s.send ∧ ChainShape s.send
  recv : ∀ c ∈ s.recv, (NoSeal c.ck ∧ ChainShape c.ck) ∧ ∀ k ∈ c.skipped, FromChain k

theorem step_kempt {U : Bytes → Prop} {s s' : State} {e : Option Use} (h : Step U s s' e) (hk : Kempt s) :
    Kempt s' ∧ ∀ u ∈ e.toList, FromChain u.keys := by
  obtain ⟨h1, h2, h3⟩ := hk
  have mid : ∀ {pre post : List ChainTerms} {c c' : ChainTerms}, (∀ x ∈ pre ++ c :: post, (NoSeal x.ck ∧ ChainShape x.ck) ∧ ∀ k ∈ x.skipped, FromChain k) →
      ((NoSeal c'.ck ∧ ChainShape c'.ck) ∧ ∀ k ∈ c'.skipped, FromChain k) →
      ∀ x ∈ pre ++ c' :: post, (NoSeal x.ck ∧ ChainShape x.ck) ∧ ∀ k ∈ x.skipped, FromChain k := by
    intro pre post c c' h hc x hx
    simp only [List.mem_append, List.mem_cons] at hx
    rcases hx with hx | rfl | hx
    · exact h x (by simp [hx])
    · exact hc
    · exact h x (by simp [hx])
  have nx : ∀ {ck : Term}, NoSeal ck ∧ ChainShape ck → NoSeal (next ck) ∧ ChainShape (next ck) := fun h => ⟨noSeal_next h.1 h.2, .inr (.inr ⟨_, rfl⟩)⟩
  cases h with
  | send root send recv =>
    refine ⟨⟨h1, nx h2, h3⟩, ?_⟩
    intro u hu
    simp only [Option.toList_some, List.mem_singleton] at hu
    subst hu
    exact ⟨send, h2.1, h2.2, rfl⟩
  | skip root send pre post n ck l =>
    have hc := h3 ⟨n, ck, l⟩ (by simp)
    refine ⟨⟨h1, h2, mid h3 ⟨nx hc.1, fun k hk => ?_⟩⟩, by simp⟩
    simp only [List.mem_append, List.mem_singleton] at hk
    rcases hk with hk | rfl
    · exact hc.2 k hk
    · exact ⟨ck, hc.1.1, hc.1.2, rfl⟩
  | receive root send pre post n ck l =>
    have hc := h3 ⟨n, ck, l⟩ (by simp)
    refine ⟨⟨h1, h2, mid h3 ⟨nx hc.1, hc.2⟩⟩, ?_⟩
    intro u hu
    simp only [Option.toList_some, List.mem_singleton] at hu
    subst hu
    exact ⟨ck, hc.1.1, hc.1.2, rfl⟩
  | late root send pre post n ck l r k =>
    have hc := h3 ⟨n, ck, l ++ k :: r⟩ (by simp)
    refine ⟨⟨h1, h2, mid h3 ⟨hc.1, fun k' hk => hc.2 k' ?_⟩⟩, ?_⟩
    · simp only [List.mem_append, List.mem_cons] at hk ⊢
      rcases hk with hk | hk
      · exact .inl hk
      · exact .inr (.inr hk)
    · intro u hu
      simp only [Option.toList_some, List.mem_singleton] at hu
      subst hu
      exact hc.2 k (by simp)
  | ratchet root send recv n dh1 dh2 =>
    have g1 := noSeal_root h1.1 h1.2 U dh1
    have g2 := noSeal_root g1.1 (T1_not_mac _ _) U dh2
    refine ⟨⟨⟨g2.1, T1_not_mac _ _⟩, ⟨g2.2, .inl ⟨_, rfl⟩⟩, ?_⟩, by simp⟩
    intro c hc
    simp only [List.mem_append, List.mem_singleton] at hc
    rcases hc with hc | rfl
    · exact h3 c hc
    · exact ⟨⟨g1.2, .inl ⟨_, rfl⟩⟩, by simp⟩
  | forgetKey root send pre post n ck l r k =>
    have hc := h3 ⟨n, ck, l ++ k :: r⟩ (by simp)
    refine ⟨⟨h1, h2, mid h3 ⟨hc.1, fun k' hk => hc.2 k' ?_⟩⟩, by simp⟩
    simp only [List.mem_append, List.mem_cons] at hk ⊢
    rcases hk with hk | hk
    · exact .inl hk
    · exact .inr (.inr hk)
  | forgetChain root send pre post c =>
    refine ⟨⟨h1, h2, fun x hx => h3 x ?_⟩, by simp⟩
    simp only [List.mem_append, List.mem_cons] at hx ⊢
    rcases hx with hx | hx
    · exact .inl hx
    · exact .inr (.inr hx)

theorem run_kempt {U : Bytes → Prop} {s s' : State} {es : List Use} (h : Run U s s' es) (hk : Kempt s) : Kempt s' ∧ ∀ u ∈ es, FromChain u.keys := by
  induction h with
  | refl => exact ⟨hk, by simp⟩
  | step _ hs ih =>
    obtain ⟨h1, h2⟩ := ih
    obtain ⟨h3, h4⟩ := step_kempt hs h1
    refine ⟨h3, fun u hu => ?_⟩
    rcases List.mem_append.1 hu with hu | hu
    · exact h2 u hu
    · exact h4 u hu

/-- Sending always uses the keys of a chain position. -/
theorem run_sent {U : Bytes → Prop} {s s' : State} {es : List Use} (h : Run U s s' es) : ∀ u ∈ es, u.chain = none → ∃ ck, u.keys = msg ck := by
  induction h with
  | refl => simp
  | step _ hs ih =>
    intro u hu hn
    rcases List.mem_append.1 hu with hu | hu
    · exact ih u hu hn
    · cases hs <;> simp only [Option.toList_some, Option.toList_none, List.mem_singleton, List.not_mem_nil] at hu <;> subst hu
      · exact ⟨_, rfl⟩
      · cases hn
      · cases hn

theorem msg_inj {a b : Term} (h : (msg a).mac = (msg b).mac) : a = b := by
  simp only [msg, T2, msgPrk, Term.hash.injEq, true_and, and_true] at h
  exact h.1

theorem kempt_responder (U : Bytes → Prop) (D : List Bytes) : Kempt ⟨x3dhRoot (D.map (dhTerm U)), x3dhChain (D.map (dhTerm U)), []⟩ := by
  have h := noSeal_x3dh (D := D.map (dhTerm U)) (by
    intro x hx
    obtain ⟨v, -, rfl⟩ := List.mem_map.1 hx
    exact noSeal_dh U v)
  exact ⟨⟨h.1, T1_not_mac _ _⟩, ⟨h.2, .inr (.inl ⟨_, rfl⟩)⟩, by simp⟩

theorem kempt_initiator (U : Bytes → Prop) (D : List Bytes) (v n : Bytes) :
    Kempt ⟨rootOf (x3dhRoot (D.map (dhTerm U))) (dhTerm U v), chainOf (x3dhRoot (D.map (dhTerm U))) (dhTerm U v), [⟨n, x3dhChain (D.map (dhTerm U)), []⟩]⟩ := by
  obtain ⟨h1, h2, -⟩ := kempt_responder U D
  have g := noSeal_root h1.1 h1.2 U v
  refine ⟨⟨g.1, T1_not_mac _ _⟩, ⟨g.2, .inl ⟨_, rfl⟩⟩, ?_⟩
  intro c hc
  simp only [List.mem_singleton] at hc
  subst hc
  exact ⟨h2, by simp⟩

end Verif.Sym
