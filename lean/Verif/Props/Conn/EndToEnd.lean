import Verif.Lemmas.Conn.LinkSched
import Verif.Props.Conn.Delivery
import Verif.Props.Conn.Always

/- From the calls of one user to the results of the other: C82. -/

set_option autoImplicit false
set_option linter.unusedSimpArgs false

namespace M3.Spec

open M3.Conn

/-- `d` is the datagram that the call `c` is meant to send. -/
def meant (cfg : Config) (c : Api) (d : List UInt8) : Prop :=
  match c with
  | .write b | .writeToStream b _ => d = dataOf cfg b
  | .writePD pd | .writePDToStream pd _ => d = dataWith cfg (tv pd)
  | .writeSignal m => m.Encodes d
  | _ => False

/-- The call is meant to transmit a payload of the set `P`. -/
def transmits (cfg : Config) (P : ProtocolDataPayload → Prop) (g : Gor) : Prop :=
  ∃ c d pd, g = .api c ∧ meant cfg c d ∧ carries d pd ∧ P pd

end M3.Spec

namespace M3.Conn

open Spec

/-! ### What is sent by the calls of the user -/

theorem sends_append (a b : List Rec) : sends (a ++ b) = sends a ++ sends b := by simp [sends]

/-- A call sends at most one datagram, the one it is meant to send. -/
theorem call_sends {E : Env} {w : World} (h : Reachable E w) {i : Nat} {t : Thread} (ht : w.threads[i]? = some t)
    {c : Api} (hc : t.gor = .api c) : (sends (w.of i)).length ≤ 1 ∧ ∀ s ∈ sends (w.of i), meant E.cfg c s.bytes := by
  let P : List Ev → Op → Prop := fun s o => match o with
    | .write d _ => s.filterMap sent? = [] ∧ meant E.cfg c d
    | _ => True
  have hu : ∀ b, dataWith E.cfg (tv (some (userPD E b))) = dataOf E.cfg b := fun b => by rw [← dataMsg_wire, userPD_wire]
  have hw : WP (Hist P) (.api c) (fun _ _ => True) [] (body E (.api c)) := by
    cases c
    all_goals try wp_code [Hist.ok_eq, Hist.may_eq, Hist.next_eq, P, meant, List.nil_append, List.append_assoc, List.cons_append,
      List.filterMap_append, List.filterMap_cons, List.filterMap_nil, sent?, dataMsg_wire]
    all_goals first | exact fun _ _ => M3UA.encodes_wire _ | simp +contextual [hu]
  have key : ∀ l₁ x l₂, w.of i = l₁ ++ x :: l₂ → ∀ s, sent? x.ev = some s → sends l₁ = [] ∧ meant E.cfg c s.bytes := by
    intro l₁ x l₂ hl s hs
    have := Hist.api h ht hc hw hl
    obtain ⟨j, g, o, r⟩ := x
    cases o <;> simp only [sent?, reduceCtorEq, Option.some.injEq] at hs
    subst hs
    obtain ⟨h1, h2⟩ := this
    rw [List.filterMap_map] at h1
    exact ⟨h1, h2⟩
  constructor
  · generalize hl : w.of i = l at key
    clear hl
    suffices ∀ l', l' <+: l → (sends l').length ≤ 1 from this l (List.prefix_refl _)
    intro l'
    induction hn : l'.length generalizing l' with
    | zero => intro _; rw [List.length_eq_zero_iff.mp hn]; exact Nat.zero_le _
    | succ n ih =>
      intro hp
      obtain ⟨l'', x, rfl⟩ : ∃ l'' x, l' = l'' ++ [x] :=
        ⟨l'.dropLast, l'.getLast (by rintro rfl; cases hn), (List.dropLast_concat_getLast _).symm⟩
      have hn : l''.length = n := by simpa using hn
      rw [sends_append]
      cases hs : sent? x.ev with
      | none => simp only [sends, List.filterMap_cons, hs, List.filterMap_nil, List.append_nil]; exact ih l'' hn ((List.prefix_append _ _).trans hp)
      | some s =>
        obtain ⟨l₃, rfl⟩ := hp
        rw [(key l'' x l₃ (by simp) s hs).1]
        simp [sends, hs]
  · intro s hs
    obtain ⟨x, hx, hs⟩ := List.mem_filterMap.mp hs
    obtain ⟨l₁, l₂, hl⟩ := List.append_of_mem hx
    exact (key l₁ x l₂ hl s hs).2

/-- What carries a payload is of class 1 and type 1, up to collisions; in any case it does not look like a message that the library
sends on its own. -/
theorem carries_octets {d : Bytes} {pd : ProtocolDataPayload} (h : carries d pd = true) :
    octets d ∉ ([(0, 0), (3, 1), (3, 3), (3, 4), (3, 5), (4, 1), (4, 3), (4, 4)] : List (UInt8 × UInt8)) ∧ (octets d).2 ≠ 6 := by
  obtain ⟨m, p, hp, -⟩ := carries_data h
  have hk := (c21_all d _ hp .data).mp rfl
  simp only [Kind.cls, Kind.typ] at hk
  constructor
  · intro hm
    simp only [octets, List.mem_cons, Prod.mk.injEq, List.not_mem_nil, or_false] at hm
    rcases hm with hm | hm | hm | hm | hm | hm | hm | hm <;> rw [hm.1, hm.2] at hk <;> revert hk <;> decide
  · intro hm
    have hm : d.getD 3 0 = 6 := hm
    rw [hm] at hk
    have := congrArg (Nat.testBit · 1) hk
    simp only [Nat.testBit_or, UInt8.reduceToNat, Nat.reduceMul, Nat.reduceAdd, show Nat.testBit 6 1 = true by decide,
      show Nat.testBit 17 1 = false by decide, Bool.or_true] at this
    cases this

/-- Only calls of the user send payloads. -/
theorem payload_user {E : Env} {w : World} (h : Reachable E w) {x : Rec} (hx : x ∈ w.trace) {s : Sent} (hs : sent? x.ev = some s)
    {pd : ProtocolDataPayload} (hc : carries s.bytes pd = true) : ∃ c, x.gor = .api c := by
  have h1 := (c40_streams h x hx s hs).2
  obtain ⟨h2, h3⟩ := carries_octets hc
  cases hg : x.gor with
  | api c => exact ⟨c, rfl⟩
  | packet raw =>
    rw [hg] at h1
    rcases h1.2 with h1 | ⟨m, -, h1⟩
    · exact absurd h1 h2
    · exact absurd (by rw [h1]) h3
  | _ => rw [hg] at h1; exact absurd h1.2 h2

theorem tot_const_zero (l : List Nat) : tot (fun _ => 0) l = 0 := by
  induction l with
  | nil => rfl
  | cons a l ih => rw [tot_cons, ih]

/-- A call of the user is not followed by other code in the same goroutine. -/
theorem api_last {E : Env} {c : Api} {h : List Ev} {g : Gor} : ¬ Path (body E (.api c)) h (.ret (some g)) := by
  intro hp
  refine Triv.path (g := .api c) (Q := fun _ r => r ≠ some g) ?_ hp rfl
  cases c <;> wp_code [Triv.ok_eq, Triv.may_eq, Triv.next_eq]

theorem Trail.not_api {E : Env} {i : Nat} {pre : List Rec} {g : Gor} (h : Trail E i pre g) {x : Rec} (hx : x ∈ pre) {c : Api} :
    x.gor ≠ .api c := by
  induction h with
  | nil => cases hx
  | snoc _ hp ih =>
    rcases List.mem_append.mp hx with hx | hx
    · exact ih hx
    · obtain ⟨e, -, rfl⟩ := List.mem_map.mp hx
      rintro rfl
      exact api_last hp

/-- Counting a trace goroutine by goroutine. -/
theorem countP_by_tid (p : Rec → Bool) (n : Nat) (l : List Rec) (h : ∀ x ∈ l, x.tid < n) :
    l.countP p = tot (fun i => (l.filter fun x => x.tid == i).countP p) (List.range n) := by
  induction l with
  | nil =>
    rw [List.countP_nil]
    simp only [List.filter_nil, List.countP_nil, tot_const_zero]
  | cons x l ih =>
    have hx := h x List.mem_cons_self
    rw [List.countP_cons, ih fun y hy => h y (List.mem_cons_of_mem _ hy)]
    have : ∀ i, ((x :: l).filter fun x => x.tid == i).countP p =
        (l.filter fun x => x.tid == i).countP p + if x.tid = i ∧ p x = true then 1 else 0 := by
      intro i
      rw [List.filter_cons]
      by_cases hi : x.tid = i
      · rw [if_pos (by simpa using hi), List.countP_cons]; simp [hi]
      · rw [if_neg (by simpa using hi)]; simp [hi]
    simp only [this]
    have add : ∀ (f g : Nat → Nat) (m : List Nat), tot (fun i => f i + g i) m = tot f m + tot g m := by
      intro f g m
      induction m with
      | nil => rfl
      | cons a m ih => simp only [tot_cons, ih]; omega
    rw [add]
    congr 1
    by_cases hp : p x = true
    · simp only [hp, if_true, and_true]
      have one : ∀ n, tot (fun i => if x.tid = i then 1 else 0) (List.range n) = if x.tid < n then 1 else 0 := by
        intro n
        induction n with
        | zero => rfl
        | succ n ih =>
          rw [List.range_succ, tot_append, ih, tot_cons, tot_nil]
          split <;> split <;> split <;> omega
      rw [one, if_pos hx]
    · simp only [hp, Bool.false_eq_true, and_false, if_false, tot_const_zero]

/-- Counting a list index by index. -/
theorem tot_index {σ : Type} (f : σ → Nat) (l : List σ) :
    tot f l = tot (fun i => match l[i]? with
      | some t => f t
      | none => 0) (List.range l.length) := by
  simp only [tot]
  congr 1
  apply List.ext_getElem?
  intro i
  by_cases hi : i < l.length
  · simp [hi]
  · rw [List.getElem?_eq_none (by simpa using hi), List.getElem?_eq_none (by simpa using hi)]

theorem tot_le {σ : Type} {f g : σ → Nat} {l : List σ} (h : ∀ i ∈ l, f i ≤ g i) : tot f l ≤ tot g l := by
  induction l with
  | nil => exact Nat.le_refl _
  | cons a m ih =>
    rw [tot_cons, tot_cons]
    exact Nat.add_le_add (h a List.mem_cons_self) (ih fun i hi => h i (List.mem_cons_of_mem _ hi))

/-- The datagrams sent with a property that only payloads have are at most as many as the calls meant to send one. -/
theorem sends_calls {E : Env} {w : World} (h : Reachable E w) (P : ProtocolDataPayload → Prop) :
    (sends w.trace).countP (fun s => @decide _ (Classical.propDecidable (∃ pd, carries s.bytes pd ∧ P pd))) ≤
      w.threads.countP (fun t => @decide _ (Classical.propDecidable (transmits E.cfg P t.gor))) := by
  rw [sends, List.countP_filterMap, countP_by_tid _ w.threads.length _ (Follows.reach h).1, ← tot_countP]
  rw [tot_index _ w.threads]
  refine tot_le fun i hi => ?_
  have hi : i < w.threads.length := by simpa using hi
  rw [List.getElem?_eq_getElem hi]
  have ht : w.threads[i]? = some w.threads[i] := List.getElem?_eq_getElem hi
  generalize w.threads[i] = t at ht
  simp only
  by_cases hz : ∃ x ∈ w.of i, ∃ s, sent? x.ev = some s ∧ ∃ pd, carries s.bytes pd ∧ P pd
  · obtain ⟨x, hx, s, hs, pd, hc, hP⟩ := hz
    obtain ⟨c, hg⟩ := payload_user h (List.mem_filter.mp hx).1 hs hc
    have htg : t.gor = .api c := by
      obtain ⟨h1, pre, h2, h3⟩ := (Follows.reach h).2 i t ht
      rw [h2] at hx
      rcases List.mem_append.mp hx with hx | hx
      · exact absurd hg (h3.not_api hx)
      · obtain ⟨e, -, rfl⟩ := List.mem_map.mp hx
        exact hg
    obtain ⟨h1, h2⟩ := call_sends h ht htg
    rw [if_pos (by
      simp only [decide_eq_true_iff, htg]
      exact ⟨c, s.bytes, pd, rfl, h2 s (List.mem_filterMap.mpr ⟨x, hx, hs⟩), hc, hP⟩)]
    refine Nat.le_trans ?_ h1
    rw [sends, List.length_filterMap_eq_countP]
    refine List.countP_mono_left fun y _ hy => ?_
    cases hs : sent? y.ev with
    | none => rw [hs] at hy; cases hy
    | some s => rfl
  · refine Nat.le_trans (Nat.le_of_eq ?_) (Nat.zero_le _)
    rw [List.countP_eq_zero]
    intro x hx hd
    cases hs : sent? x.ev with
    | none => rw [hs] at hd; cases hd
    | some s =>
      rw [hs] at hd
      exact hz ⟨x, hx, s, hs, by simpa using hd⟩

/-! ### C82 -/

/-- An endpoint that gets only short datagrams reads them one by one. -/
theorem local_inbox {E : Env} {w w' : World} (hR : Reachable E w) (h : Local E w w')
    (hlen : ∀ d ∈ w.sh.inbox, d.length ≤ 1500) : receives w'.trace ++ w'.sh.inbox = receives w.trace ++ w.sh.inbox := by
  obtain ⟨h1, h2⟩ := h
  have hR' := hR.tail h1
  cases h1 with
  | env _ he =>
    cases he with
    | deliver d => exact absurd rfl (h2 d)
    | _ => rfl
  | call _ _ _ => rfl
  | loop _ _ _ _ _ _ => rfl
  | crash _ _ _ _ _ _ _ _ => rfl
  | run i g hist o k r _ ht hx =>
    clear h2
    have hr : ∀ x : Rec, receives [x] = (received? x.ev).toList := fun x => by
      cases h : received? x.ev <;> simp [receives, h]
    simp only [Flow.receives_append, hr]
    cases hx with
    | read h1 h2 h3 => simp [received?, h2]
    | @readPart n d q h1 h2 h3 =>
      have := hlen d (by rw [h2]; exact List.mem_cons_self)
      have hn : n = 1500 := ((Facts.reach hR').2.2 _ (List.mem_append_right _ List.mem_cons_self)).1
      omega
    | _ => simp [received?]
  | sync i j gi gj hi hj oi oj ki kj ri rj _ _ _ _ hx =>
    clear h2
    have hr : ∀ x y : Rec, receives [x, y] = (received? x.ev).toList ++ (received? y.ev).toList := fun x y => by
      cases h : received? x.ev <;> cases h' : received? y.ev <;> simp [receives, h, h']
    simp only [Flow.receives_append, hr]
    cases hx <;> simp [received?]

/-- What `a` has sent is what `b` has received, or can still receive. -/
theorem Link.Reachable.transit {Ea Eb : Env} {p : Link} (h : Link.Reachable Ea Eb p) (hs : ∀ d ∈ p.a.out, d.length ≤ 1500) :
    (receives p.b.trace ++ p.b.sh.inbox ++ p.toB).Perm p.a.out := by
  have out_append : ∀ {E : Env} {w w' : World}, Conn.Step E w w' → ∃ l, w'.out = w.out ++ l := by
    intro E w w' h
    obtain ⟨l, hl⟩ := h.trace
    exact ⟨(sends l).map (·.bytes), by rw [World.out, hl, sends_append, List.map_append]; rfl⟩
  unfold Link.Reachable at h
  generalize hi : Link.init Ea Eb = i at h
  induction h with
  | refl => subst hi; exact List.Perm.refl _
  | @tail p q hst hstep ih =>
    subst hi
    cases hstep with
    | @a a' h1 =>
      obtain ⟨l, hl⟩ := out_append h1.1
      have := ih fun d hd => hs d (by show d ∈ a'.out; rw [hl]; exact List.mem_append_left _ hd)
      show (receives p.b.trace ++ p.b.sh.inbox ++ (p.toB ++ a'.out.drop p.a.out.length)).Perm a'.out
      rw [hl, List.drop_left, ← List.append_assoc]
      exact this.append_right l
    | @b b' h1 =>
      have ih := ih hs
      have hlen : ∀ d ∈ p.b.sh.inbox, d.length ≤ 1500 := fun d hd =>
        hs d (ih.subset (List.mem_append_left _ (List.mem_append_right _ hd)))
      have key := local_inbox (Link.Reachable.ends (p := p) hst).2 h1 hlen
      show (receives b'.trace ++ b'.sh.inbox ++ p.toB).Perm p.a.out
      rw [key]
      exact ih
    | @toB d l l' h1 h2 =>
      have ih := ih hs
      rw [h2] at ih
      refine List.Perm.trans ?_ ih
      show (receives p.b.trace ++ (p.b.sh.inbox ++ [d]) ++ (l ++ l')).Perm _
      simp only [List.append_assoc, List.singleton_append]
      exact ((List.perm_middle (a := d)).symm.append_left _).append_left _
    | toA h1 h2 => exact ih hs

open Classical in
/-- C82: two endpoints of this library, whatever they and their users do. If no datagram of the one is longer than 1500 bytes, then
for any set `P` of payloads, the results of `Read` and `ReadPD` of the other that can only be payloads in `P` are at most as
many as the calls of the first meant to transmit one. -/
theorem c82_integrity {Ea Eb : Env} {p : Link} (h : Link.Reachable Ea Eb p) (hs : ∀ s ∈ sends p.a.trace, s.bytes.length ≤ 1500)
    (P : ProtocolDataPayload → Prop) :
    (returns p.b.trace).countP (fun res => returnsOnly P res) ≤ p.a.threads.countP (fun t => transmits Ea.cfg P t.gor) := by
  have hp := h.transit (fun d hd => by obtain ⟨s, hs', rfl⟩ := List.mem_map.mp hd; exact hs s hs')
  refine Nat.le_trans (c50_returned h.ends.2 P) (Nat.le_trans ?_ (sends_calls h.ends.1 P))
  have := (List.append_assoc _ _ _ ▸ hp).countP_eq (fun raw => decide (∃ pd, carries raw pd ∧ P pd))
  rw [List.countP_append, World.out, List.countP_map] at this
  have e : (fun raw => decide (∃ pd, carries raw pd ∧ P pd)) ∘ (fun s : Sent => s.bytes) =
    fun s => decide (∃ pd, carries s.bytes pd ∧ P pd) := rfl
  rw [e] at this
  omega

/-- Nobody sends DATA but by `Write` and `WriteToStream`, and not more than a parameter can hold. -/
def PlainUser (w : World) : Prop := ∀ t ∈ w.threads, match t.gor with
  | .api (.write b) | .api (.writeToStream b _) => 12 + b.length ≤ maxValue
  | .api (.writePD _) | .api (.writePDToStream ..) | .api (.writeSignal _) => False
  | _ => True

theorem plain_transmits {w : World} (hu : PlainUser w) {c : Config} (hc : DataConfig c) {t : Thread} (ht : t ∈ w.threads)
    {P : ProtocolDataPayload → Prop} (h : transmits c P t.gor) :
    ∃ b, (t.gor = .api (.write b) ∨ ∃ s, t.gor = .api (.writeToStream b s)) ∧ P (payloadFor c b) := by
  obtain ⟨call, d, pd, hg, hm, hd, hP⟩ := h
  have := hu t ht
  rw [hg] at this ⊢
  cases call <;> simp only [meant] at hm <;> simp only at this
  · subst hm
    exact ⟨_, .inl rfl, c43_unique hd (c43_understood hc this).2 ▸ hP⟩
  · subst hm
    exact ⟨_, .inr ⟨_, rfl⟩, c43_unique hd (c43_understood hc this).2 ▸ hP⟩

open Classical in
/-- C82: in particular, if the first user only calls `Write` and `WriteToStream`, the other gets no data but those that were
written, and no more often than they were written. -/
theorem c82_write {Ea Eb : Env} {p : Link} (h : Link.Reachable Ea Eb p) (hs : ∀ s ∈ sends p.a.trace, s.bytes.length ≤ 1500)
    (hc : DataConfig Ea.cfg) (hu : PlainUser p.a) (b : Bytes) :
    (returns p.b.trace).countP (fun res => res = .data b.length b ∨ ∃ pd, res = .pd pd ∧ pd.data = b) ≤
      p.a.threads.countP (fun t => t.gor = .api (.write b) ∨ ∃ s, t.gor = .api (.writeToStream b s)) := by
  refine Nat.le_trans ?_ (Nat.le_trans (c82_integrity h hs (fun pd => pd.data = b)) ?_)
  · refine List.countP_mono_left fun res _ hr => ?_
    simp only [decide_eq_true_iff] at hr ⊢
    rcases hr with rfl | ⟨pd, rfl, hd⟩
    · refine ⟨⟨⟨0, 0, 0, 0, 0, 0, b⟩, .inr ⟨b.length, by simp⟩⟩, fun pd hy => ?_⟩
      rcases hy with hy | ⟨n, hy⟩
      · cases hy
      · simp only [ApiRes.data.injEq] at hy
        have h1 := hy.1
        have h2 := congrArg List.length hy.2
        rw [List.length_take] at h2
        rw [hy.2, List.take_of_length_le (by omega)]
    · refine ⟨⟨pd, .inl rfl⟩, fun q hy => ?_⟩
      rcases hy with hy | ⟨n, hy⟩
      · cases hy; exact hd
      · cases hy
  · refine List.countP_mono_left fun t ht hr => ?_
    simp only [decide_eq_true_iff] at hr ⊢
    obtain ⟨b', h1, h2⟩ := plain_transmits hu hc ht hr
    have h2 : b' = b := h2
    subst h2
    exact h1

/-- C82: and `ReadPD` gives the point codes and other fields of the writer's configuration. -/
theorem c82_readPD {Ea Eb : Env} {p : Link} (h : Link.Reachable Ea Eb p) (hs : ∀ s ∈ sends p.a.trace, s.bytes.length ≤ 1500)
    (hc : DataConfig Ea.cfg) (hu : PlainUser p.a) {pd : ProtocolDataPayload} (hr : .pd pd ∈ returns p.b.trace) :
    pd = payloadFor Ea.cfg pd.data := by
  have h1 := c82_integrity h hs (· = pd)
  have h2 : 0 < (returns p.b.trace).countP (fun res => @decide _ (Classical.propDecidable (returnsOnly (· = pd) res))) := by
    rw [List.countP_pos_iff]
    refine ⟨_, hr, ?_⟩
    simp only [decide_eq_true_iff]
    exact ⟨⟨pd, .inl rfl⟩, fun q hq => by rcases hq with hq | ⟨n, hq⟩ <;> cases hq; rfl⟩
  obtain ⟨t, ht, hr⟩ := List.countP_pos_iff.mp (Nat.lt_of_lt_of_le h2 h1)
  simp only [decide_eq_true_iff] at hr
  obtain ⟨b, -, h3⟩ := plain_transmits hu hc ht hr
  rw [← h3]; rfl

/-- For the theorems on C82: Handshake, a `Write` by the client, a `ReadPD` by the server. -/
example : ∃ p, Link.Reachable E₀ { E₀ with mode := .server } p ∧
    (p.a.threads.map Thread.gor).drop 6 = [.api (.write [8, 9])] ∧ (p.a.out.map List.length, returns p.b.trace) =
      ([8, 8, 28], [.pd (payloadFor E₀.cfg [8, 9])]) := by
  obtain ⟨p, h1, h2⟩ := link_of (Ea := E₀) (Eb := { E₀ with mode := .server }) (f := fun p => ((p.a.threads.map Thread.gor).drop 6,
      p.a.out.map List.length, returns p.b.trace))
    (cs := shake ++ onA ([.call (.write [8, 9]), .run 6 (.std 2)] ++ go 6 4) ++
      .toB 0 :: onB (go 2 2 ++ [.loop 2] ++ go 6 2 ++ go 7 2 ++ [.call .readPD] ++ go 8 3))
    (v := ([.api (.write [8, 9])], [8, 8, 28], [.pd (payloadFor E₀.cfg [8, 9])])) (by kernel_rfl)
  simp only [Prod.mk.injEq] at h2
  exact ⟨p, h1, h2.1, by rw [h2.2.1, h2.2.2]⟩

end M3.Conn
