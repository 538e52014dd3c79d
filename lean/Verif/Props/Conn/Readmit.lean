import Verif.Props.Conn.Lockout

/- A client that is active, is taken out of service by its gateway, and is let in again: C126. -/

set_option autoImplicit false
set_option linter.unusedSimpArgs false

namespace M3.Spec

open M3.Conn

/-- A peer that acknowledges every ASP Up and ASP Active, and once, after the first ASP Active Ack, takes the client out of service without being asked. -/
structure Readmitter where
  upAck : List UInt8
  activeAck : List UInt8
  release : List UInt8

namespace Readmitter

/-- The messages are what they are called, and fit into the buffer. It is ASP Inactive Ack or ASP Down Ack that takes the client out of service. -/
structure Proper (g : Readmitter) : Prop where
  upAck : meaning g.upAck = some .aspUpAck
  activeAck : meaning g.activeAck = some .aspActiveAck
  release : meaning g.release = some .aspInactiveAck ∨ meaning g.release = some .aspDownAck
  short : ∀ d ∈ [g.upAck, g.activeAck, g.release], d.length ≤ 1500

/-- The acknowledgements for the requests that lead back to AspActive: ASP Active, and before it ASP Up if the client was AspDown. -/
def comeback (g : Readmitter) : List (List UInt8) := if meaning g.release = some .aspInactiveAck then [g.activeAck] else [g.upAck, g.activeAck]

/-- All it sends. -/
def full (g : Readmitter) : List (List UInt8) := [g.upAck, g.activeAck, g.release] ++ g.comeback

/-- What it has sent after `k` requests. -/
def replies (g : Readmitter) : Nat → List (List UInt8)
  | 0 => []
  | 1 => [g.upAck]
  | k + 2 => [g.upAck, g.activeAck, g.release] ++ g.comeback.take k

/-- Whatever the connection has received is what the peer has sent until then, in that order. -/
def Feeds (g : Readmitter) (l : List Rec) : Prop :=
  ∀ l₁ x l₂ raw, l = l₁ ++ x :: l₂ → received? x.ev = some raw → receives l₁ ++ [raw] <+: g.replies (requestsIn l₁)

end Readmitter

end M3.Spec

namespace M3.Conn

open Spec

namespace Readmit

def kindsOf (g : Readmitter) : List Kind :=
  if meaning g.release = some .aspInactiveAck then [.aspUpAck, .aspActiveAck, .aspInactiveAck, .aspActiveAck]
  else [.aspUpAck, .aspActiveAck, .aspDownAck, .aspUpAck, .aspActiveAck]

theorem full_kinds {g : Readmitter} (hg : g.Proper) : g.full.map meaning = (kindsOf g).map some := by
  rw [Readmitter.full, Readmitter.comeback, kindsOf]
  rcases hg.release with h | h <;> simp [hg.upAck, hg.activeAck, h]

theorem tame_of (g : Readmitter) : ∀ k ∈ kindsOf g, k ∈ Mirror.tame := by
  rw [kindsOf]
  split <;> decide

theorem take_facts {g : Readmitter} (hg : g.Proper) (c : Config) (bytes : M3UA → Bytes) (n : Nat) :
    transcript c bytes .client (g.full.take n) = upOf c :: Mirror.talk c .down ((kindsOf g).take n) ∧
    stateAfter (g.full.take n) = ((kindsOf g).take n).foldl (fun s k => (commands k).getD s) .down := by
  obtain ⟨h1, h2⟩ := Mirror.dialogue_talk c bytes (g.full.take n) ((kindsOf g).take n) .down (by rw [List.map_take, full_kinds hg, List.map_take])
    fun k hk => tame_of g k (List.mem_of_mem_take hk)
  exact ⟨by rw [transcript, h1]; rfl, h2⟩

theorem full_length (g : Readmitter) : g.full.length = (kindsOf g).length := by
  rw [Readmitter.full, Readmitter.comeback, kindsOf]
  split <;> rfl

theorem replies_prefix (g : Readmitter) (k : Nat) : g.replies k <+: g.full := by
  match k with
  | 0 => exact List.nil_prefix
  | 1 => exact ⟨_, rfl⟩
  | k + 2 => exact (List.prefix_append_right_inj _).mpr (List.take_prefix _ _)

theorem full_mild {g : Readmitter} (hg : g.Proper) {raw : Bytes} (h : raw ∈ g.full) : Mild raw := by
  have hk : ∃ t, meaning raw = some t ∧ t ∈ Mirror.tame := by
    have : meaning raw ∈ (kindsOf g).map some := full_kinds hg ▸ List.mem_map_of_mem h
    obtain ⟨t, h1, h2⟩ := List.mem_map.mp this
    exact ⟨t, h2.symm, tame_of g t h1⟩
  obtain ⟨t, h1, h2⟩ := hk
  refine ⟨hg.short raw ?_, fun hu => ?_, ?_, ?_⟩
  · rw [Readmitter.full, Readmitter.comeback] at h
    split at h <;> simp only [List.mem_append, List.mem_cons, List.not_mem_nil, or_false] at h ⊢
    · rcases h with (h | h | h) | h <;> simp [h]
    · rcases h with (h | h | h) | h | h <;> simp [h]
  · obtain ⟨m, hp, -⟩ := meaning_parse h1
    exact hu m hp (meaning_version h1)
  · rw [h1]
    rintro ⟨⟩
    exact absurd h2 (by decide)
  · rw [h1]
    rintro ⟨⟩
    exact absurd h2 (by decide)

theorem ahead {g : Readmitter} (hg : g.Proper) (c : Config) (bytes : M3UA → Bytes) {rs : List Bytes} (h : rs <+: g.full) (hne : rs ≠ g.full) :
    rs.length < (g.replies ((transcript c bytes .client rs).countP isRequest)).length := by
  have ht := List.prefix_iff_eq_take.mp h
  have hlt : rs.length < g.full.length := Nat.lt_of_le_of_ne h.length_le fun he => hne (h.eq_of_length he)
  rw [full_length] at hlt
  rw [ht, (take_facts hg c bytes _).1, ← ht]
  generalize rs.length = n at hlt
  rw [kindsOf] at hlt ⊢
  by_cases hr : meaning g.release = some .aspInactiveAck
  · simp only [hr, if_true] at hlt ⊢
    have hl : ∀ k, (g.replies (k + 2)).length = 3 + min k 1 := fun k => by simp [Readmitter.replies, Readmitter.comeback, hr]; omega
    match n, hlt with
    | 0, _ => exact Nat.zero_lt_one
    | 1, _ => exact (hl 0).symm ▸ (by decide)
    | 2, _ => exact (hl 0).symm ▸ (by decide)
    | 3, _ => exact (hl 1).symm ▸ (by decide)
  · simp only [hr, if_false] at hlt ⊢
    have hl : ∀ k, (g.replies (k + 2)).length = 3 + min k 2 := fun k => by simp [Readmitter.replies, Readmitter.comeback, hr]; omega
    match n, hlt with
    | 0, _ => exact Nat.zero_lt_one
    | 1, _ => exact (hl 0).symm ▸ (by decide)
    | 2, _ => exact (hl 0).symm ▸ (by decide)
    | 3, _ => exact (hl 1).symm ▸ (by decide)
    | 4, _ => exact (hl 2).symm ▸ (by decide)

/-- Everything but the last acknowledgement lets the connection go on. -/
theorem once_before {g : Readmitter} (hg : g.Proper) {rs : List Bytes} (h : rs <+: g.full) (hne : rs ≠ g.full) : Once rs := by
  have ht := List.prefix_iff_eq_take.mp h
  have hlt : rs.length < g.full.length := Nat.lt_of_le_of_ne h.length_le fun he => hne (h.eq_of_length he)
  rw [full_length] at hlt
  have hp : rs <+: g.full.take ((kindsOf g).length - 1) := by
    rw [ht]
    exact List.take_prefix_take_left (by omega)
  refine Once.prefix (Realized.once_of ?_) hp
  simp only [List.take_take, (take_facts hg (Config.new 0 0 0 0 0 0) M3UA.wire _).2, List.length_take, full_length]
  rw [kindsOf]
  split <;> decide +kernel

theorem not_once {g : Readmitter} (hg : g.Proper) : ¬ Once g.full := by
  intro h
  have st := fun n => (take_facts hg (Config.new 0 0 0 0 0 0) M3UA.wire n).2
  have h1 := h (g.full.take 2) (g.full.take 3) (g.full.take (kindsOf g).length) (List.take_prefix_take_left (by decide))
    (List.take_prefix_take_left (by rw [kindsOf]; split <;> decide)) (List.take_prefix _ _)
  rw [st, st, st] at h1
  revert h1
  rw [kindsOf]
  split <;> decide

theorem within {g : Readmitter} {w : World} (hf : g.Feeds w.trace) : receives w.trace <+: g.full := by
  have key : ∀ n, receives (w.trace.take n) <+: g.full := by
    intro n
    induction n with
    | zero => exact List.nil_prefix
    | succ n ih =>
      by_cases hn : n < w.trace.length
      · rw [List.take_succ_eq_append_getElem hn, Gate.receives_snoc]
        cases hr : received? (w.trace[n]).ev with
        | none => simpa using ih
        | some raw =>
          have hw : w.trace = w.trace.take n ++ w.trace[n] :: w.trace.drop (n + 1) := by
            rw [← List.drop_eq_getElem_cons hn, List.take_append_drop]
          exact (hf _ _ _ _ hw hr).trans (replies_prefix g _)
      · rw [List.take_of_length_le (by omega)] at ih ⊢
        exact ih
  have := key w.trace.length
  rwa [List.take_length] at this

/-- A connection that is locked up has received all. -/
theorem locked {g : Readmitter} (hg : g.Proper) {E : Env} {w : World} (h : Reachable E w) (hr : reasons w.trace = []) (hw : receives w.trace <+: g.full)
    (hl : LockedUp w) : receives w.trace = g.full := by
  obtain ⟨-, -, hno, -⟩ := c105_open h hr
  have hest : ∀ x ∈ w.trace, x.ev.op ≠ .closeEst := fun x hx ho => hno x hx (.inr ho)
  obtain ⟨x, hx, hxo⟩ := Realized.told h hr hl.cause
  obtain ⟨i, ⟨gg, hist, p⟩, k, ht, hp⟩ := hl.sends
  simp only at hp
  subst hp
  apply Classical.byContradiction
  intro hne
  exact Realized.again h hest ht hx hxo (once_before hg hw hne)

end Readmit

open Readmit in
/-- C126: the client does not survive being let in again: as long as there is no other reason to close the connection, it never waits for a datagram after the last acknowledgement, and
whenever nothing is under way and nothing happens any more by itself, it is locked up, having received all the acknowledgements. -/
theorem c126_hangs {g : Readmitter} (hg : g.Proper) {E : Env} (hm : E.mode = .client) {w : World} (h : Reachable E w) (hr : reasons w.trace = [])
    (hu : leavesAlone w.trace) (hf : g.Feeds w.trace) :
    (receives w.trace = g.full → ¬ w.at (.read 1500)) ∧
    (Halted E w → receives w.trace = g.replies (requestsIn w.trace) → LockedUp w ∧ receives w.trace = g.full) := by
  obtain ⟨hopen, -, hno, hend⟩ := c105_open h hr
  have hest : ∀ x ∈ w.trace, x.ev.op ≠ .closeEst := fun x hx ho => hno x hx (.inr ho)
  have hw := within hf
  have hlast : receives w.trace = g.full → ¬ w.at (.read 1500) := fun he hat => not_once hg (he ▸ c103_once h hest hat)
  refine ⟨hlast, fun hq hall => ?_⟩
  have hl : LockedUp w := by
    rcases c89_rest h hq with h1 | h1 | h1 | h1
    · exfalso
      by_cases he : receives w.trace = g.full
      · exact hlast he h1.reads
      · have h2 := ahead hg E.cfg M3UA.wire hw he
        obtain ⟨i, ⟨gg, hist, p⟩, k, ht, e⟩ := h1.reads
        simp only at e
        subst e
        have ha := c103_plain h hest (fun raw hr => by
          have := full_mild hg (hw.subset hr)
          exact ⟨this.data, this.ack⟩) ht M3UA.encodes_wire
        rw [hm] at ha
        rw [← ha, ← Lock3.own hu, ← hall] at h2
        exact Nat.lt_irrefl _ h2
    · exfalso
      obtain ⟨raw, h3, h4⟩ := h1.cause
      have := full_mild hg (hw.subset (List.mem_of_getLast? h3))
      rcases h4 with h4 | h4
      · exact this.usable h4
      · exact this.ack h4.1
    · exact h1
    · exfalso
      have := h1.sctp
      rw [hopen] at this
      cases this
  exact ⟨hl, locked hg h hr hw hl⟩

open Readmit in
/-- C126: this happens for every such peer and every configuration. -/
theorem c126_reached {g : Readmitter} (hg : g.Proper) (E : Env) (hm : E.mode = .client) : ∃ w, Reachable E w ∧ LockedUp w ∧ reasons w.trace = [] ∧
    leavesAlone w.trace ∧ g.Feeds w.trace ∧ receives w.trace = g.full := by
  have h0 : Realized.Inv E [] (init E) := ⟨.refl _, rfl, rfl, rfl, rfl⟩
  obtain ⟨w₁, -, h1⟩ := h0.deliver (more := g.full) rfl
  rw [List.nil_append] at h1
  have hrs : ∀ raw ∈ g.full, Mild raw := fun raw hr => full_mild hg hr
  obtain ⟨n, w, hrun, h2⟩ := c89_settles h1.reach
  have h' := h1.run hrs hrun
  have hpre : receives w.trace <+: g.full := ⟨_, h'.all⟩
  have hsub : ∀ raw ∈ receives w.trace, Mild raw := fun raw hm => hrs raw (hpre.subset hm)
  obtain ⟨hopen, -, hno, hend⟩ := c105_open h'.reach h'.reasons
  have hest : ∀ x ∈ w.trace, x.ev.op ≠ .closeEst := fun x hx ho => hno x hx (.inr ho)
  have hl : LockedUp w := by
    rcases h2 with h2 | h2 | h2 | h2 | h2
    · exfalso
      rcases c56_causes h'.reach h2 with ⟨raw, h3, h4 | h4⟩ | ⟨-, t, h3, c, h4, -⟩ | ⟨x, h3, h4⟩
      · exact (hsub raw h3).data h4.1
      · exact (hsub raw h3).ack h4.1
      · have := List.countP_eq_zero.mp h'.calls t.gor (List.mem_map_of_mem h3)
        rw [h4] at this
        exact this rfl
      · exact hest x h3 h4
    · exfalso
      have he : receives w.trace = g.full := by
        have := h'.all
        rwa [h2.inbox, List.append_nil] at this
      exact not_once hg (he ▸ c103_once h'.reach hest h2.reads)
    · exfalso
      obtain ⟨raw, h3, h4⟩ := h2.cause
      have := hsub raw (List.mem_of_getLast? h3)
      rcases h4 with h4 | h4
      · exact this.usable h4
      · exact this.ack h4.1
    · exact h2
    · exfalso
      have := h2.sctp
      rw [hopen] at this
      cases this
  have hfull := locked hg h'.reach h'.reasons hpre hl
  have hu : leavesAlone w.trace := fun x hx ho => by rw [Gate.unattended h'.reach h'.calls hx] at ho; cases ho
  refine ⟨w, h'.reach, hl, h'.reasons, hu, fun l₁ x l₂ raw hw hr => ?_, hfull⟩
  have hsub' : ∀ y ∈ l₁, y ∈ w.trace := fun y hy => hw ▸ List.mem_append_left _ hy
  have hrec : receives l₁ ++ [raw] <+: g.full := by
    rw [← hfull, hw, show l₁ ++ x :: l₂ = l₁ ++ [x] ++ l₂ by simp, Fold.receives_append, Gate.receives_snoc, hr]
    exact List.prefix_append _ _
  have hp : receives l₁ <+: g.full := (List.prefix_append _ _).trans hrec
  have hlen := hrec.length_le
  rw [List.length_append, List.length_singleton] at hlen
  have hne : receives l₁ ≠ g.full := fun he => by rw [he] at hlen; omega
  have hb := Gate.tight h'.reach hw fun raw' hr' => by
    have := full_mild hg (hp.subset hr')
    exact ⟨this.data, this.ack⟩
  have h7 := ahead hg E.cfg M3UA.wire hp hne
  rw [Lock3.own fun y hy => hu y (hsub' y hy), c103_received h'.reach hw hr (fun y hy => hest y (hsub' y hy)) hb M3UA.encodes_wire, hm]
  refine List.prefix_of_prefix_length_le hrec (replies_prefix g _) ?_
  rw [List.length_append, List.length_singleton]
  omega

/-- For C126: gateways that use ASP Inactive Ack and ASP Down Ack. -/
example : (⟨message 1 3 4 [], message 1 4 3 [], message 1 4 4 []⟩ : Readmitter).Proper ∧ (⟨message 1 3 4 [], message 1 4 3 [], message 1 3 5 []⟩ : Readmitter).Proper ∧
    E₀.mode = .client ∧ (⟨message 1 3 4 [], message 1 4 3 [], message 1 4 4 []⟩ : Readmitter).full.map octets = [(3, 4), (4, 3), (4, 4), (4, 3)] ∧
    (⟨message 1 3 4 [], message 1 4 3 [], message 1 3 5 []⟩ : Readmitter).full.map octets = [(3, 4), (4, 3), (3, 5), (3, 4), (4, 3)] := by
  refine ⟨⟨by decide +kernel, by decide +kernel, .inl (by decide +kernel), by decide +kernel⟩,
    ⟨by decide +kernel, by decide +kernel, .inr (by decide +kernel), by decide +kernel⟩, rfl, by decide +kernel, by decide +kernel⟩

end M3.Conn
