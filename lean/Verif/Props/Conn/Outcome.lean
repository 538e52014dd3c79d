import Verif.Lemmas.Conn.CalmRun
import Verif.Props.Conn.Talk
import Verif.Props.Conn.Finish

/- Two endpoints that are not disturbed come to rest, with everything delivered: C88. -/

set_option autoImplicit false

namespace M3.Spec

open M3.Conn

/-- Every call has returned exactly once, apart from `Close`, from calls of `Read` and `ReadPD` that wait for data while there are none, and
from calls that are meant to send something other than a payload in a datagram of at most 1500 bytes. -/
def Returned (E : Env) (w : World) : Prop :=
  ∀ i t c, w.threads[i]? = some t → t.gor = .api c → (∃ r, returns (w.of i) = [r]) ∨ c = .close ∨
    ((c = .readPD ∨ ∃ n, c = .read n) ∧ w.sh.dataQ = []) ∨ ∃ d, meant E.cfg c d ∧ ¬ (d.length ≤ 1500 ∧ ∃ pd, carries d pd)

end M3.Spec

namespace M3.Conn

open Spec

namespace Run

variable {Ec Es : Env} {c s : Values} {p q : Link}

theorem in_order (h : Smooth p) : InOrder p :=
  ⟨Calm.take_prefix h.toB (List.prefix_append _ _), Calm.take_prefix h.toA (List.prefix_append _ _)⟩

theorem inbox_short (hs : Setup Ec Es c s) (hn : Ec.maxStream ≠ 0 ∧ Es.maxStream ≠ 0) (h : Link.Reachable Ec Es p) (hp : Smooth p) :
    (arrived p.b ++ p.toB).Perm p.a.out ∧ (arrived p.a ++ p.toA).Perm p.b.out ∧
    (∀ d ∈ p.a.sh.inbox, d.length ≤ 1500) ∧ ∀ d ∈ p.b.sh.inbox, d.length ≤ 1500 := by
  obtain ⟨h1, h2⟩ := talk_both hs hn h hp.a hp.b (in_order hp)
  obtain ⟨a1, a2, -⟩ := Calm.half h hn.1 (Calm.meets_client hs) h1.1 h1.2 hp.a
  obtain ⟨b1, b2, -⟩ := Calm.half h.flip hn.2 (Calm.meets_server hs) h2.1 h2.2 hp.b
  exact ⟨a2, b2, fun d hd => b1 d (b2.subset (by simp only [Link.flip, List.mem_append]; exact .inl (.inr hd))),
    fun d hd => a1 d (a2.subset (by simp only [List.mem_append]; exact .inl (.inr hd)))⟩

theorem out_bound {E : Env} (hE : E.maxStream ≠ 0) {w : World} (h : Reachable E w) (hu : Undisturbed E.mode w) (hq : Calm.Still E w.trace)
    (hp : Peaceful w) : w.out.length ≤ 2 + userCalls w := by
  obtain ⟨k, hk⟩ := Calm.sent hE h hu hq
  obtain ⟨l, hl, -, hd⟩ := hk.out hp
  have h1 := sends_calls h fun _ => True
  have h2 : w.threads.countP (fun t => @decide _ (Classical.propDecidable (transmits E.cfg (fun _ => True) t.gor))) ≤ userCalls w := by
    rw [userCalls, List.countP_map]
    refine List.countP_mono_left fun t _ ht => ?_
    obtain ⟨c, d, pd, hg, -⟩ := @of_decide_eq_true _ (Classical.propDecidable _) ht
    simp only [Function.comp, hg, ofUser]
  have h3 : l.length ≤ (sends w.trace).countP (fun s => @decide _ (Classical.propDecidable (∃ pd, carries s.bytes pd ∧ True))) := by
    have e : (sends w.trace).countP (fun s => @decide _ (Classical.propDecidable (∃ pd, carries s.bytes pd ∧ True))) =
        w.out.countP (fun d => @decide _ (Classical.propDecidable (∃ pd, carries d pd ∧ True))) := by
      rw [World.out, List.countP_map]
      rfl
    rw [e, hl, List.countP_append]
    refine Nat.le_trans (Nat.le_of_eq ?_) (Nat.le_add_left _ _)
    refine (List.countP_eq_length.mpr fun d hd' => ?_).symm
    obtain ⟨-, pd, hc⟩ := hd d hd'
    exact @decide_eq_true _ (Classical.propDecidable _) ⟨pd, hc, trivial⟩
  rw [hl, List.length_append, List.length_take, Calm.hand_length]
  omega

/-- What a step changes. -/
theorem link_count (hs : Setup Ec Es c s) (hn : Ec.maxStream ≠ 0 ∧ Es.maxStream ≠ 0) (h : Link.Reachable Ec Es p) (hp : Smooth p)
    (hw : Link.Work Ec Es p q) (hq : Smooth q) :
    2 * p.a.trace.length + 2 * p.b.trace.length + (tot around q.a.threads + tot around q.b.threads) +
        ((arrived p.a).length + (arrived p.b).length) + 1 ≤
      2 * q.a.trace.length + 2 * q.b.trace.length + (tot around p.a.threads + tot around p.b.threads) +
        ((arrived q.a).length + (arrived q.b).length) ∧
    userCalls q.a = userCalls p.a ∧ userCalls q.b = userCalls p.b := by
  obtain ⟨ca, -, cb, -⟩ := c85_safe hs hn (h.tail (work_step hw)) hq.a hq.b (in_order hq)
  obtain ⟨-, -, la, lb⟩ := inbox_short hs hn h hp
  cases hw with
  | a hw =>
    have h1 := work_count hw ca
    have h2 := congrArg List.length (local_inbox h.ends.1 (work_local hw) la)
    refine ⟨?_, work_calls h.ends.1 hw, rfl⟩
    simp only [arrived] at h2 ⊢
    omega
  | b hw =>
    have h1 := work_count hw cb
    have h2 := congrArg List.length (local_inbox h.ends.2 (work_local hw) lb)
    refine ⟨?_, rfl, work_calls h.ends.2 hw⟩
    simp only [arrived] at h2 ⊢
    omega
  | toB h1 h2 =>
    refine ⟨?_, rfl, rfl⟩
    simp only [arrived, World.deliver, List.length_append, List.length_singleton]
    omega
  | toA h1 h2 =>
    refine ⟨?_, rfl, rfl⟩
    simp only [arrived, World.deliver, List.length_append, List.length_singleton]
    omega

theorem run_count (hs : Setup Ec Es c s) (hn : Ec.maxStream ≠ 0 ∧ Es.maxStream ≠ 0) (h : Link.Reachable Ec Es p) (hp : Smooth p) {n : Nat}
    (hr : Smoothly Ec Es n p q) :
    Link.Reachable Ec Es q ∧ Smooth q ∧
    2 * p.a.trace.length + 2 * p.b.trace.length + (tot around q.a.threads + tot around q.b.threads) +
        ((arrived p.a).length + (arrived p.b).length) + n ≤
      2 * q.a.trace.length + 2 * q.b.trace.length + (tot around p.a.threads + tot around p.b.threads) +
        ((arrived q.a).length + (arrived q.b).length) ∧
    userCalls q.a = userCalls p.a ∧ userCalls q.b = userCalls p.b := by
  induction hr with
  | refl => exact ⟨h, hp, by omega, rfl, rfl⟩
  | tail hr hw hq ih =>
    obtain ⟨h1, h2, h3, h4, h5⟩ := ih h hp
    obtain ⟨g1, g2, g3⟩ := link_count hs hn h1 h2 hw hq
    exact ⟨h1.tail (work_step hw), hq, by omega, g2.trans h4, g3.trans h5⟩

/-- The library's own work at one end keeps everything smooth. -/
theorem smooth_a (hs : Setup Ec Es c s) (hn : Ec.maxStream ≠ 0 ∧ Es.maxStream ≠ 0) (h : Link.Reachable Ec Es p) (hp : Smooth p) {w : World}
    (hw : Work Ec p.a w) (hu : Peaceful w) : Smooth { p with a := w, toB := p.toB ++ w.out.drop p.a.out.length } := by
  obtain ⟨-, -, la, -⟩ := inbox_short hs hn h hp
  refine ⟨hu, hp.b, hp.toB.trans (work_out hw), ?_⟩
  have e : arrived w = arrived p.a := local_inbox h.ends.1 (work_local hw) la
  simp only [e]
  exact hp.toA

theorem smooth_b (hs : Setup Ec Es c s) (hn : Ec.maxStream ≠ 0 ∧ Es.maxStream ≠ 0) (h : Link.Reachable Ec Es p) (hp : Smooth p) {w : World}
    (hw : Work Es p.b w) (hu : Peaceful w) : Smooth { p with b := w, toA := p.toA ++ w.out.drop p.b.out.length } := by
  obtain ⟨-, -, -, lb⟩ := inbox_short hs hn h hp
  refine ⟨hp.a, hu, ?_, hp.toA.trans (work_out hw)⟩
  have e : arrived w = arrived p.b := local_inbox h.ends.2 (work_local hw) lb
  simp only [e]
  exact hp.toB

/-- Among the datagrams under way there is one that may arrive next. -/
theorem next_up {got way out : List Bytes} (hperm : (got ++ way).Perm out) (ht : got.take 2 <+: out) (hne : way ≠ []) :
    ∃ l d l', way = l ++ d :: l' ∧ (got ++ [d]).take 2 <+: out := by
  by_cases h2 : 2 ≤ got.length
  · obtain ⟨d, l, rfl⟩ := List.exists_cons_of_ne_nil hne
    exact ⟨[], d, l, rfl, by rw [List.take_append_of_le_length h2]; exact ht⟩
  · rw [List.take_of_length_le (by omega)] at ht
    obtain ⟨rest, rfl⟩ := ht
    have hperm := (List.perm_append_left_iff _).mp hperm
    cases rest with
    | nil => exact absurd hperm.eq_nil hne
    | cons d rest =>
      obtain ⟨l, l', e⟩ := List.append_of_mem (hperm.symm.subset List.mem_cons_self)
      refine ⟨l, d, l', e, ?_⟩
      refine List.IsPrefix.trans (List.take_prefix _ _) ⟨rest, by simp⟩

theorem ended_returns {E : Env} {w : World} (h : Reachable E w) {i : Nat} {t : Thread} (ht : w.threads[i]? = some t) {c : Api}
    (hc : t.gor = .api c) (hd : t.prog = .ret none) : ∃ r, returns (w.of i) = [r] := by
  have hw : WP (Hist fun _ _ => True) (.api c) (fun s _ => ∃ r, s.filterMap returned? = [r]) [] (body E (.api c)) := by
    cases c
    all_goals wp_code [Hist.ok_eq, Hist.may_eq, Hist.next_eq, List.nil_append, List.append_assoc, List.cons_append,
      List.filterMap_append, List.filterMap_cons, List.filterMap_nil, returned?]
    all_goals simp
  obtain ⟨r, hr⟩ := Hist.ended h ht hc rfl hd hw
  exact ⟨r, by rw [returns, ← hr, List.filterMap_map]; rfl⟩

theorem done_of {E : Env} (hE : E.maxStream ≠ 0) {w : World} (h : Reachable E w) (hu : Undisturbed E.mode w) (hq : Calm.Still E w.trace)
    (hp : Peaceful w) (hi : Idle E w) (hr : ∀ w', Work E w w' → ¬ Peaceful w') : Returned E w := by
  intro i t c ht hg
  obtain ⟨g, e, pr⟩ := t
  obtain rfl : g = .api c := hg
  by_cases hcl : c = .close
  · exact .inr (.inl hcl)
  cases pr with
  | ret r =>
    cases r with
    | none => exact .inl (ended_returns h ht rfl rfl)
    | some g' => exact absurd ((Follows.reach h).2 i _ ht).1 api_last
  | op o k =>
    obtain ⟨ss, hl, hv, -⟩ := Calm.roles_sent hE h hu hq
    obtain ⟨s, hs⟩ := getElem?_some_of_length hl.1 ht
    have hoff : s ≠ .off := by rintro rfl; exact (hv.fact i _ hs).elim
    obtain ⟨hfit, hok⟩ := (hl.2 i _ s ht hs).1
    obtain rfl : s = .free := by
      rcases (Calm.fits_user hfit hoff).1.mp rfl with h | h
      · exact h
      · have := (Calm.fits_user hfit hoff).2 h
        cases this
        exact (hcl rfl).elim
    obtain ⟨j, hj, -⟩ := Calm.rest h hl hv hi
    have hun : w.sh.locked = false := (hv.fact j _ hj).2.1
    have hcr := hv.opens.crashed
    have hnext := next_op hE h ht
    -- a step of the call that disturbs nothing is impossible
    have stop : ∀ (r : Resp o) (sh' : Shared), Exec w.sh o r sh' → Ev.calm ⟨o, r⟩ = true → sh'.ctxDone = w.sh.ctxDone →
        (∀ s, sent? ⟨o, r⟩ = some s → s.bytes.length ≤ 1500 ∧ ∃ pd, carries s.bytes pd) → False := by
      intro r sh' hx hm hctx hsend
      refine hr _ (.run i _ e o k r hcr ht hx hm) ⟨hctx.trans hp.ctx, fun x hx => ?_, fun x hx hu => ?_, fun x hx hu => ?_⟩
      · rcases List.mem_append.mp hx with hx | hx
        · exact hp.user x hx
        · cases List.mem_singleton.mp hx
          intro e
          cases e
          exact hcl rfl
      · rcases List.mem_append.mp hx with hx | hx
        · exact hp.calm x hx hu
        · cases List.mem_singleton.mp hx
          exact hm
      · rcases List.mem_append.mp hx with hx | hx
        · exact hp.talk x hx hu
        · cases List.mem_singleton.mp hx
          exact hsend
    cases o <;> first | (cases hok; done) | skip
    · exact (stop _ _ (.state hun) rfl rfl (fun s h => by cases h)).elim
    · refine .inr (.inr (.inl ⟨hnext, ?_⟩))
      cases hq : w.sh.dataQ with
      | nil => rfl
      | cons pd q => exact (stop _ _ (.recvData hq) rfl rfl (fun s h => by cases h)).elim
    · exact (stop _ _ .info rfl rfl (fun s h => by cases h)).elim
    · rename_i d inf
      by_cases hd : d.length ≤ 1500 ∧ ∃ pd, carries d pd
      · exact (stop _ _ (.write (n := 0) hv.opens.sctp) rfl rfl (fun s h => by cases h; exact hd)).elim
      · exact .inr (.inr (.inr ⟨d, hnext, hd⟩))
    · exact (stop _ _ (.intn (r := 0) (Nat.pos_of_ne_zero hnext)) rfl rfl (fun s h => by cases h)).elim
    · exact (stop _ _ .done rfl rfl (fun s h => by cases h)).elim

theorem decided {P : Prop} {inst : Decidable P} : @decide P inst = true ↔ P := decide_eq_true_iff

theorem count_takes {l : List (Option ProtocolDataPayload)} {x : ProtocolDataPayload} {f : Option ProtocolDataPayload → Bool}
    (hf : ∀ y, f y = true ↔ ∃ pd, y = some pd ∧ pd = x) : l.count (some x) = l.countP f := by
  rw [List.count]
  refine List.countP_congr fun y _ => ?_
  rw [hf, beq_iff_eq]
  exact ⟨fun h => ⟨x, h, rfl⟩, fun ⟨pd, h1, h2⟩ => h2 ▸ h1⟩

theorem count_queue {l : List ProtocolDataPayload} {x : ProtocolDataPayload} {f : ProtocolDataPayload → Bool}
    (hf : ∀ y, f y = true ↔ y = x) : l.count x = l.countP f := by
  rw [List.count]
  refine List.countP_congr fun y _ => ?_
  rw [hf, beq_iff_eq]

theorem counts {l : List (Option ProtocolDataPayload)} {q : List ProtocolDataPayload} {x : ProtocolDataPayload} {n : Nat}
    {f : Option ProtocolDataPayload → Bool} {g : ProtocolDataPayload → Bool} (e : l.countP f + q.countP g = n)
    (hf : ∀ y, f y = true ↔ ∃ pd, y = some pd ∧ pd = x) (hg : ∀ y, g y = true ↔ y = x) : l.count (some x) + q.count x = n := by
  rw [count_takes hf, count_queue hg, e]

theorem plain_of {cfg : Config} {w : World} (h : Writer cfg w) : PlainUser w := by
  intro t ht
  have := h t ht
  revert this
  cases t.gor with
  | api c => cases c <;> first | exact fun h => h | exact fun h => h.1 | exact fun _ => trivial
  | _ => exact fun _ => trivial

theorem writing_iff {b : Bytes} {g : Gor} : writing b g = true ↔ g = .api (.write b) ∨ ∃ s, g = .api (.writeToStream b s) := by
  unfold writing
  cases g with
  | api c => cases c <;> simp
  | _ => simp

/-- No more payloads are sent than written. -/
theorem sent_le {E : Env} {w : World} (h : Reachable E w) (hd : DataConfig E.cfg) (hw : Writer E.cfg w) (b : Bytes) :
    (sends w.trace).countP (fun s => @decide _ (Classical.propDecidable (∃ pd, carries s.bytes pd ∧ pd = payloadFor E.cfg b))) ≤
      w.threads.countP (fun t => writing b t.gor) := by
  refine Nat.le_trans (sends_calls h _) (List.countP_mono_left fun t ht hb => ?_)
  obtain ⟨b', h1, h2⟩ := plain_transmits (plain_of hw) hd ht (@of_decide_eq_true _ (Classical.propDecidable _) hb)
  cases h2
  exact writing_iff.mpr h1

theorem none_long {cfg : Config} {w : World} (hw : Writer cfg w) {b : Bytes} (hl : ¬ 12 + b.length ≤ maxValue) :
    w.threads.countP (fun t => writing b t.gor) = 0 := by
  rw [List.countP_eq_zero]
  intro t ht hb
  have := hw t ht
  rcases writing_iff.mp hb with hg | ⟨s, hg⟩ <;> rw [hg] at this <;> exact hl this.1

/-- All calls that write have succeeded. -/
theorem written_le {E : Env} (hE : E.maxStream ≠ 0) {w : World} (h : Reachable E w) (hu : Undisturbed E.mode w) (hq : Calm.Still E w.trace)
    (hw : Writer E.cfg w) (hd : DataConfig E.cfg) (hdone : Returned E w) (hc : ∀ x ∈ sends w.trace, x.answer ≠ none) (b : Bytes)
    {n : Nat} {f : Thread → Bool} (hn : w.threads.countP f ≤ n)
    (hf : ∀ t, f t = true ↔ (t.gor = .api (.write b) ∨ ∃ s, t.gor = .api (.writeToStream b s)) ∧ succeeded t) :
    w.threads.countP (fun t => writing b t.gor) ≤ n := by
  refine Nat.le_trans ?_ hn
  refine List.countP_mono_left fun t ht hb => ?_
  obtain ⟨i, hi⟩ := List.getElem?_of_mem ht
  have hg := writing_iff.mp hb
  refine (hf t).mpr ⟨hg, ?_⟩
  obtain ⟨hlen, h15⟩ : 12 + b.length ≤ maxValue ∧ (dataOf E.cfg b).length ≤ 1500 := by
    have := hw t ht
    rcases hg with hg | ⟨s, hg⟩ <;> rw [hg] at this <;> exact this
  obtain ⟨a, hga, hm, hcl, hro⟩ : ∃ a, t.gor = .api a ∧ (∀ d, meant E.cfg a d → d = dataOf E.cfg b) ∧ a ≠ .close ∧
      ¬ (a = .readPD ∨ ∃ n, a = .read n) := by
    rcases hg with hg | ⟨s, hg⟩
    · exact ⟨_, hg, fun d h => h, by simp, by simp⟩
    · exact ⟨_, hg, fun d h => h, by simp, by simp⟩
  have hret : ∃ r, returns (w.of i) = [r] := by
    rcases hdone i t a hi hga with h | h | h | ⟨d, h1, h2⟩
    · exact h
    · exact (hcl h).elim
    · exact (hro h.1).elim
    · rw [hm d h1] at h2
      exact (h2 ⟨h15, _, (c43_understood hd hlen).2⟩).elim
  obtain ⟨r, hret⟩ := hret
  obtain ⟨str, hout⟩ : ∃ str, WriteOutcome (dataOf E.cfg b) str (observes (w.of i)) (sends (w.of i)) r := by
    rcases hg with hg | ⟨s, hg⟩
    · exact ⟨_, c41_write h hi hg (by rw [hret]; exact List.mem_singleton.mpr rfl)⟩
    · exact ⟨_, c41_writeToStream h hi hg (by rw [hret]; exact List.mem_singleton.mpr rfl)⟩
  obtain ⟨hpath, hof⟩ := Follows.once h hi hga rfl
  have hhist : t.hist.filterMap returned? = [r] := by
    rw [← hret, returns, hof, List.filterMap_map]
    rfl
  have hsub : ∀ {x}, x ∈ w.of i → x ∈ w.trace := fun hx => (List.mem_filter.mp hx).1
  rcases hout with ⟨st, h1, h2, -⟩ | ⟨-, x, h1, -, -, -, h2⟩
  · have : st ∈ observes (w.of i) := by rw [h1]; exact List.mem_singleton.mpr rfl
    obtain ⟨y, hy, hy'⟩ := List.mem_filterMap.mp this
    have hyu : ofUser y.gor = true := by
      rw [hof] at hy
      obtain ⟨e, -, rfl⟩ := List.mem_map.mp hy
      rfl
    exact (h2 (sees_active hE h hu hq y (hsub hy) hyu st hy')).elim
  · have hx : x ∈ sends w.trace := by
      have : x ∈ sends (w.of i) := by rw [h1]; exact List.mem_singleton.mpr rfl
      obtain ⟨y, hy, hy'⟩ := List.mem_filterMap.mp this
      exact List.mem_filterMap.mpr ⟨y, hsub hy, hy'⟩
    cases ha : x.answer with
    | none => exact (hc x hx ha).elim
    | some n =>
      rw [ha] at h2
      exact ⟨_, by rw [hhist, h2]; exact List.mem_singleton.mpr rfl⟩

theorem writer_iff {cfg : Config} {w : World} : Writer cfg w ↔ ∀ g ∈ (w.threads.map Thread.gor).filter ofUser, match g with
    | .api (.write b) | .api (.writeToStream b _) => 12 + b.length ≤ maxValue ∧ (dataOf cfg b).length ≤ 1500
    | .api (.writePD _) | .api (.writePDToStream ..) | .api (.writeSignal _) | .api .close => False
    | _ => True := by
  constructor
  · intro h g hg
    obtain ⟨t, ht, rfl⟩ := List.mem_map.mp (List.mem_filter.mp hg).1
    exact h t ht
  · intro h t ht
    cases hu : ofUser t.gor with
    | true => exact h t.gor (List.mem_filter.mpr ⟨List.mem_map.mpr ⟨t, ht, rfl⟩, hu⟩)
    | false =>
      revert hu
      cases t.gor with
      | api c => intro hu; cases hu
      | _ => exact fun _ => trivial

theorem writing_users {b : Bytes} {w : World} :
    w.threads.countP (fun t => writing b t.gor) = ((w.threads.map Thread.gor).filter ofUser).countP (writing b) := by
  rw [List.countP_filter, List.countP_map]
  refine List.countP_congr fun t _ => ?_
  simp only [Function.comp, Bool.and_eq_true]
  refine ⟨fun h => ⟨h, ?_⟩, fun h => h.1⟩
  rcases writing_iff.mp h with h | ⟨s, h⟩ <;> rw [h] <;> rfl

/-- What the users called and how SCTP answered, at the end of a run. -/
theorem run_users (hs : Setup Ec Es c s) (hn : Ec.maxStream ≠ 0 ∧ Es.maxStream ≠ 0) (h : Link.Reachable Ec Es p) (hp : Smooth p) {n : Nat}
    (hr : Smoothly Ec Es n p q) (hc : (∀ x ∈ sends p.a.trace, x.answer ≠ none) ∧ ∀ x ∈ sends p.b.trace, x.answer ≠ none) :
    (q.a.threads.map Thread.gor).filter ofUser = (p.a.threads.map Thread.gor).filter ofUser ∧
    (q.b.threads.map Thread.gor).filter ofUser = (p.b.threads.map Thread.gor).filter ofUser ∧
    (∀ x ∈ sends q.a.trace, x.answer ≠ none) ∧ ∀ x ∈ sends q.b.trace, x.answer ≠ none := by
  induction hr with
  | refl => exact ⟨rfl, rfl, hc⟩
  | tail hr hw hq ih =>
    obtain ⟨h1, h2, h3, h4⟩ := ih h hp hc
    have hR := (run_count hs hn h hp hr).1
    cases hw with
    | a hw => exact ⟨(work_users hR.ends.1 hw).trans h1, h2, work_answers hw h3, h4⟩
    | b hw => exact ⟨h1, (work_users hR.ends.2 hw).trans h2, h3, work_answers hw h4⟩
    | toB => exact ⟨h1, h2, h3, h4⟩
    | toA => exact ⟨h1, h2, h3, h4⟩

theorem all_count {α β : Type} {q : List α} {l : List β} {m : Nat} {f : α → Bool} {f' g : β → Bool} (h : m + q.countP f ≤ l.countP f')
    (hf : ∀ x, f x = true) (hg : ∀ x, f' x = true → g x = true) : q.length ≤ l.countP g := by
  rw [List.countP_eq_length.mpr fun x _ => hf x] at h
  exact Nat.le_trans (Nat.le_trans (Nat.le_add_left _ _) h) (List.countP_mono_left fun x _ => hg x)

/-- The queue holds no more than the user of the other end has sent. -/
theorem queue_bound {Ea Eb : Env} (h : Link.Reachable Ea Eb p) (hlen : ∀ d ∈ p.a.out, d.length ≤ 1500) :
    p.b.sh.dataQ.length ≤ userCalls p.a := by
  have h1 := c50_taken h.ends.2 fun _ => True
  have h2 := sends_calls h.ends.1 fun _ => True
  have h3 : p.a.threads.countP (fun t => @decide _ (Classical.propDecidable (transmits Ea.cfg (fun _ => True) t.gor))) ≤ userCalls p.a := by
    rw [userCalls, List.countP_map]
    refine List.countP_mono_left fun t _ ht => ?_
    obtain ⟨c, d, pd, hg, -⟩ := @of_decide_eq_true _ (Classical.propDecidable _) ht
    simp only [Function.comp, hg, ofUser]
  have hperm := (h.transit hlen).countP_eq (fun raw => @decide _ (Classical.propDecidable (∃ pd, carries raw pd ∧ True)))
  rw [List.append_assoc, List.countP_append, World.out, List.countP_map] at hperm
  have h1' := all_count h1 (fun _ => decided.mpr trivial) (g := fun raw => @decide _ (Classical.propDecidable (∃ pd, carries raw pd ∧ True)))
    fun _ h => decided.mpr (decided.mp h)
  have e' : (fun raw => @decide _ (Classical.propDecidable (∃ pd, carries raw pd ∧ True))) ∘ (fun s : Sent => s.bytes) =
    fun s => @decide _ (Classical.propDecidable (∃ pd, carries s.bytes pd ∧ True)) := rfl
  rw [e'] at hperm
  omega

end Run

section
variable {Ec Es : Env} {c s : Values} {p : Link}

/-- C88: two endpoints of this library that are not disturbed do not go on for ever: without new calls of the users there are at most
352 more steps, and 67 for each call made so far. -/
theorem c88_bounded (hs : Setup Ec Es c s) (hn : Ec.maxStream ≠ 0 ∧ Es.maxStream ≠ 0) (h : Link.Reachable Ec Es p) (hp : Smooth p)
    {n : Nat} {q : Link} (hr : Smoothly Ec Es n p q) : n ≤ 352 + 67 * (userCalls p.a + userCalls p.b) := by
  obtain ⟨hq, sq, hc, ua, ub⟩ := Run.run_count hs hn h hp hr
  obtain ⟨u1, u2⟩ := talk_both hs hn hq sq.a sq.b (Run.in_order sq)
  obtain ⟨p1, p2, -, -⟩ := Run.inbox_short hs hn hq sq
  have o1 := Run.out_bound hn.1 hq.ends.1 u1.1 u1.2 sq.a
  have o2 := Run.out_bound hn.2 hq.ends.2 u2.1 u2.2 sq.b
  have t1 := c87_work hq.ends.1
  have t2 := c87_work hq.ends.2
  rw [Run.no_beats hs.quiet.1 hq.ends.1] at t1
  rw [Run.no_beats hs.quiet.2 hq.ends.2] at t2
  have r1 := Run.around_bound h.ends.1
  have r2 := Run.around_bound h.ends.2
  have l1 := p1.length_eq
  have l2 := p2.length_eq
  simp only [arrived, List.length_append] at l1 l2 hc
  omega

/-- C88: when no step is possible any more without a disturbance or a new call, nothing is under way and the library has nothing left to
do at either end. So `Dial` and `Accept` have returned the connection, both ends are active, and everything that arrived has been
read. -/
theorem c88_rest (hs : Setup Ec Es c s) (hn : Ec.maxStream ≠ 0 ∧ Es.maxStream ≠ 0) (h : Link.Reachable Ec Es p) (hp : Smooth p)
    (hr : Stopped Ec Es p) :
    (p.toA = [] ∧ p.toB = []) ∧ (Idle Ec p.a ∧ Idle Es p.b) ∧
    .conn ∈ p.a.openings ∧ .conn ∈ p.b.openings ∧ p.a.sh.st = .active ∧ p.b.sh.st = .active ∧ p.a.sh.inbox = [] ∧ p.b.sh.inbox = [] := by
  have ho := Run.in_order hp
  obtain ⟨ca, -, cb, -⟩ := c85_safe hs hn h hp.a hp.b ho
  obtain ⟨p1, p2, -, -⟩ := Run.inbox_short hs hn h hp
  have ht : p.toA = [] ∧ p.toB = [] := by
    constructor
    · refine Classical.byContradiction fun hne => ?_
      obtain ⟨l, d, l', e, hd⟩ := Run.next_up p2 hp.toA hne
      refine hr _ (.toA ca e) ⟨⟨hp.a.1, hp.a.2, hp.a.3, hp.a.4⟩, hp.b, hp.toB, ?_⟩
      simpa only [arrived, World.deliver, List.append_assoc] using hd
    · refine Classical.byContradiction fun hne => ?_
      obtain ⟨l, d, l', e, hd⟩ := Run.next_up p1 hp.toB hne
      refine hr _ (.toB cb e) ⟨hp.a, ⟨hp.b.1, hp.b.2, hp.b.3, hp.b.4⟩, ?_, hp.toA⟩
      simpa only [arrived, World.deliver, List.append_assoc] using hd
  have hi : Idle Ec p.a ∧ Idle Es p.b := by
    constructor
    · intro w hw
      refine (Run.own_peaceful h.ends.1 hp.a hw).resolve_left fun hu => ?_
      exact hr _ (.a hw) (Run.smooth_a hs hn h hp hw hu)
    · intro w hw
      refine (Run.own_peaceful h.ends.2 hp.b hw).resolve_left fun hu => ?_
      exact hr _ (.b hw) (Run.smooth_b hs hn h hp hw hu)
  exact ⟨ht, hi, c85_rest hs hn h hp.a hp.b ho ht hi⟩

open Classical in
/-- C88: and every payload the users sent is taken or in the queue at the other end, exactly as often as it was sent, unless a queue is
full. -/
theorem c88_delivered (hs : Setup Ec Es c s) (hn : Ec.maxStream ≠ 0 ∧ Es.maxStream ≠ 0) (h : Link.Reachable Ec Es p) (hp : Smooth p)
    (hr : Stopped Ec Es p) (hq : p.a.sh.dataQ.length < 65535 ∧ p.b.sh.dataQ.length < 65535) (P : ProtocolDataPayload → Prop) :
    ((takes p.b.trace).countP (fun x => ∃ pd, x = some pd ∧ P pd) + p.b.sh.dataQ.countP (fun pd => P pd) =
      (sends p.a.trace).countP (fun s => ∃ pd, carries s.bytes pd ∧ P pd)) ∧
    (takes p.a.trace).countP (fun x => ∃ pd, x = some pd ∧ P pd) + p.a.sh.dataQ.countP (fun pd => P pd) =
      (sends p.b.trace).countP (fun s => ∃ pd, carries s.bytes pd ∧ P pd) := by
  obtain ⟨ht, hi, -⟩ := c88_rest hs hn h hp hr
  exact (c85_delivered hs hn h hp.a hp.b (Run.in_order hp) ht hi hq P).1

/-- C88: then every call of the user has returned, apart from `Close`, from calls of `Read` and `ReadPD` that wait for data while there are none,
and from calls that would disturb the session with what they have to send. -/
theorem c88_calls (hs : Setup Ec Es c s) (hn : Ec.maxStream ≠ 0 ∧ Es.maxStream ≠ 0) (h : Link.Reachable Ec Es p) (hp : Smooth p)
    (hr : Stopped Ec Es p) : Returned Ec p.a ∧ Returned Es p.b := by
  have ho := Run.in_order hp
  obtain ⟨-, hi, -⟩ := c88_rest hs hn h hp hr
  obtain ⟨h1, h2⟩ := talk_both hs hn h hp.a hp.b ho
  exact ⟨Run.done_of hn.1 h.ends.1 h1.1 h1.2 hp.a hi.1 fun w hw hu => hr _ (.a hw) (Run.smooth_a hs hn h hp hw hu),
    Run.done_of hn.2 h.ends.2 h2.1 h2.2 hp.b hi.2 fun w hw hu => hr _ (.b hw) (Run.smooth_b hs hn h hp hw hu)⟩

/-- C88: so from wherever two undisturbed endpoints are, going on in any way leads to such an end. -/
theorem c88_reached (hs : Setup Ec Es c s) (hn : Ec.maxStream ≠ 0 ∧ Es.maxStream ≠ 0) (h : Link.Reachable Ec Es p) (hp : Smooth p) :
    ∃ n q, Smoothly Ec Es n p q ∧ Link.Reachable Ec Es q ∧ Smooth q ∧ Stopped Ec Es q := by
  suffices ∀ d n q, Smoothly Ec Es n p q → 352 + 67 * (userCalls p.a + userCalls p.b) - n = d → ∃ m r, Smoothly Ec Es m p r ∧ Stopped Ec Es r by
    obtain ⟨n, q, h1, h2⟩ := this _ 0 p (.refl p) rfl
    obtain ⟨h3, h4, -⟩ := Run.run_count hs hn h hp h1
    exact ⟨n, q, h1, h3, h4, h2⟩
  intro d
  induction d with
  | zero =>
    intro n q hr hd
    refine ⟨n, q, hr, fun r hw sr => ?_⟩
    have := c88_bounded hs hn h hp (.tail hr hw sr)
    omega
  | succ d ih =>
    intro n q hr hd
    by_cases hex : ∃ r, Link.Work Ec Es q r ∧ Smooth r
    · obtain ⟨r, hw, sr⟩ := hex
      exact ih (n + 1) r (.tail hr hw sr) (by omega)
    · exact ⟨n, q, hr, fun r hw sr => hex ⟨r, hw, sr⟩⟩

/-- C88: in the end each payload written is at the other end exactly as often as it was written: the calls of `Write` and `WriteToStream` with
`b` and the payloads with `b` that were read or can be read are equally many, in both directions, if the users write whole datagrams, SCTP
has accepted them, and the queues are not full. -/
theorem c88_write (hs : Setup Ec Es c s) (hn : Ec.maxStream ≠ 0 ∧ Es.maxStream ≠ 0) (h : Link.Reachable Ec Es p) (hp : Smooth p)
    (hr : Stopped Ec Es p) (hd : DataConfig Ec.cfg ∧ DataConfig Es.cfg) (hw : Writer Ec.cfg p.a ∧ Writer Es.cfg p.b)
    (hc : (∀ x ∈ sends p.a.trace, x.answer ≠ none) ∧ ∀ x ∈ sends p.b.trace, x.answer ≠ none)
    (hq : p.a.sh.dataQ.length < 65535 ∧ p.b.sh.dataQ.length < 65535) (b : Bytes) :
    (takes p.b.trace).count (some (payloadFor Ec.cfg b)) + p.b.sh.dataQ.count (payloadFor Ec.cfg b) =
      p.a.threads.countP (fun t => writing b t.gor) ∧
    (takes p.a.trace).count (some (payloadFor Es.cfg b)) + p.a.sh.dataQ.count (payloadFor Es.cfg b) =
      p.b.threads.countP (fun t => writing b t.gor) := by
  have ho := Run.in_order hp
  obtain ⟨ht, hi, -⟩ := c88_rest hs hn h hp hr
  obtain ⟨d1, d2⟩ := c88_calls hs hn h hp hr
  obtain ⟨h1, h2⟩ := talk_both hs hn h hp.a hp.b ho
  constructor
  · have e := Run.counts (x := payloadFor Ec.cfg b) (c88_delivered hs hn h hp hr hq (fun pd => pd = payloadFor Ec.cfg b)).1
      (fun _ => Run.decided) (fun _ => Run.decided)
    rw [e]
    refine Nat.le_antisymm (Run.sent_le h.ends.1 hd.1 hw.1 b) ?_
    by_cases hl : 12 + b.length ≤ maxValue
    · rw [← e]
      exact Run.written_le hn.1 h.ends.1 h1.1 h1.2 hw.1 hd.1 d1 hc.1 b ((c85_write hs hn h hp.a hp.b ho ht hi hq b hl).1 hd.1)
        fun _ => Run.decided
    · rw [Run.none_long hw.1 hl]
      exact Nat.zero_le _
  · have e := Run.counts (x := payloadFor Es.cfg b) (c88_delivered hs hn h hp hr hq (fun pd => pd = payloadFor Es.cfg b)).2
      (fun _ => Run.decided) (fun _ => Run.decided)
    rw [e]
    refine Nat.le_antisymm (Run.sent_le h.ends.2 hd.2 hw.2 b) ?_
    by_cases hl : 12 + b.length ≤ maxValue
    · rw [← e]
      exact Run.written_le hn.2 h.ends.2 h2.1 h2.2 hw.2 hd.2 d2 hc.2 b ((c85_write hs hn h hp.a hp.b ho ht hi hq b hl).2 hd.2)
        fun _ => Run.decided
    · rw [Run.none_long hw.2 hl]
      exact Nat.zero_le _

/-- C88, in one: whatever two undisturbed endpoints are doing, left to themselves they can only go on until they stop, and whenever they have
stopped, each payload is at the other end exactly as often as it was written. The users only write whole datagrams, have made fewer than
65535 calls each, and SCTP has not refused anything so far. -/
theorem c88_outcome (hs : Setup Ec Es c s) (hn : Ec.maxStream ≠ 0 ∧ Es.maxStream ≠ 0) (h : Link.Reachable Ec Es p) (hp : Smooth p)
    (hd : DataConfig Ec.cfg ∧ DataConfig Es.cfg) (hw : Writer Ec.cfg p.a ∧ Writer Es.cfg p.b)
    (hc : (∀ x ∈ sends p.a.trace, x.answer ≠ none) ∧ ∀ x ∈ sends p.b.trace, x.answer ≠ none)
    (hu : userCalls p.a < 65535 ∧ userCalls p.b < 65535) :
    (∃ n q, Smoothly Ec Es n p q ∧ Stopped Ec Es q) ∧
    ∀ n q, Smoothly Ec Es n p q → Stopped Ec Es q → ∀ b,
      (takes q.b.trace).count (some (payloadFor Ec.cfg b)) + q.b.sh.dataQ.count (payloadFor Ec.cfg b) =
        p.a.threads.countP (fun t => writing b t.gor) ∧
      (takes q.a.trace).count (some (payloadFor Es.cfg b)) + q.a.sh.dataQ.count (payloadFor Es.cfg b) =
        p.b.threads.countP (fun t => writing b t.gor) := by
  refine ⟨?_, fun n q hr hq b => ?_⟩
  · obtain ⟨n, q, h1, -, -, h2⟩ := c88_reached hs hn h hp
    exact ⟨n, q, h1, h2⟩
  · obtain ⟨hR, sq, -, ua, ub⟩ := Run.run_count hs hn h hp hr
    obtain ⟨g1, g2, g3, g4⟩ := Run.run_users hs hn h hp hr hc
    obtain ⟨u1, u2⟩ := talk_both hs hn hR sq.a sq.b (Run.in_order sq)
    have l1 := (Calm.half hR hn.1 (Calm.meets_client hs) u1.1 u1.2 sq.a).1
    have l2 := (Calm.half hR.flip hn.2 (Calm.meets_server hs) u2.1 u2.2 sq.b).1
    have q1 := Run.queue_bound hR l1
    have q2 := Run.queue_bound hR.flip l2
    have := c88_write hs hn hR sq hq hd ⟨Run.writer_iff.mpr (by rw [g1]; exact Run.writer_iff.mp hw.1), Run.writer_iff.mpr (by rw [g2]; exact Run.writer_iff.mp hw.2)⟩
      ⟨g3, g4⟩ ⟨by simp only [Link.flip] at q2; omega, by omega⟩ b
    rwa [Run.writing_users, Run.writing_users, g1, g2, ← Run.writing_users, ← Run.writing_users] at this

end

/-- Both users have just called `Write`, the server's user also `ReadPD`; nothing has been done about it yet. In the end the server's user has
the payload of the client's, and the other one can be read at the client. -/
example : ∃ p, Link.Reachable E₀ { E₀ with mode := .server } p ∧ Smooth p ∧ (takes p.b.trace, p.b.sh.dataQ, p.a.sh.dataQ) = ([], [], []) ∧
    (∃ n q, Smoothly E₀ { E₀ with mode := .server } n p q ∧ Stopped E₀ { E₀ with mode := .server } q) ∧
    ∀ n q, Smoothly E₀ { E₀ with mode := .server } n p q → Stopped E₀ { E₀ with mode := .server } q →
      (takes q.b.trace).count (some (payloadFor E₀.cfg [8, 9])) + q.b.sh.dataQ.count (payloadFor E₀.cfg [8, 9]) = 1 ∧
      (takes q.a.trace).count (some (payloadFor E₀.cfg [7])) + q.a.sh.dataQ.count (payloadFor E₀.cfg [7]) = 1 := by
  obtain ⟨p, h1, h2⟩ := link_of (Ea := E₀) (Eb := { E₀ with mode := .server }) (f := fun p =>
      ((p.a.sh.ctxDone, p.a.trace.all (fun x => x.gor ≠ .api .close), p.a.trace.all (fun x => !ofUser x.gor && x.ev.calm),
        arrived p.a, p.a.out, (sends p.a.trace).all (fun x => x.answer ≠ none), (p.a.threads.map Thread.gor).filter ofUser),
      (p.b.sh.ctxDone, p.b.trace.all (fun x => x.gor ≠ .api .close), p.b.trace.all (fun x => !ofUser x.gor && x.ev.calm),
        arrived p.b, p.b.out, (sends p.b.trace).all (fun x => x.answer ≠ none), (p.b.threads.map Thread.gor).filter ofUser),
        takes p.b.trace, p.b.sh.dataQ, p.a.sh.dataQ))
    (cs := shake ++ onA (go 3 1) ++ onB (go 3 1) ++ onA [.call (.write [8, 9])] ++ onB [.call (.write [7]), .call .readPD])
    (v := ((false, true, true, [message 1 3 4 [], message 1 4 3 []], [message 1 3 1 [], message 1 4 1 []], true, [.api (.write [8, 9])]),
      (false, true, true, [message 1 3 1 [], message 1 4 1 []], [message 1 3 4 [], message 1 4 3 []], true, [.api (.write [7]), .api .readPD]),
      [], [], [])) (by kernel_rfl)
  simp only [Prod.mk.injEq] at h2
  obtain ⟨⟨a1, a2, a3, a4, a5, a6, a7⟩, ⟨b1, b2, b3, b4, b5, b6, b7⟩, h3, h4, h5⟩ := h2
  have peaceful : ∀ {w : World}, w.sh.ctxDone = false → (w.trace.all fun x => decide (x.gor ≠ .api .close)) = true →
      (w.trace.all fun x => !ofUser x.gor && x.ev.calm) = true → Peaceful w := by
    intro w h1 h2 h3
    refine ⟨h1, by simpa using h2, fun x hx _ => ?_, fun x hx hu => ?_⟩
    · have := List.all_eq_true.mp h3 x hx
      simp only [Bool.and_eq_true] at this
      exact this.2
    · have := List.all_eq_true.mp h3 x hx
      simp [hu] at this
  have sm : Smooth p := ⟨peaceful a1 a2 a3, peaceful b1 b2 b3, by rw [b4, a5]; exact ⟨[], rfl⟩, by rw [a4, b5]; exact ⟨[], rfl⟩⟩
  have hdc : DataConfig E₀.cfg := ⟨nofun, nofun, nofun⟩
  have ua : userCalls p.a = 1 := by rw [userCalls, List.countP_eq_length_filter, a7]; rfl
  have ub : userCalls p.b = 2 := by rw [userCalls, List.countP_eq_length_filter, b7]; rfl
  have ho := c88_outcome (Ec := E₀) (Es := { E₀ with mode := .server }) (c := ⟨none, none, none⟩) (s := ⟨none, none, none⟩)
    ⟨rfl, rfl, ⟨rfl, rfl⟩, ⟨rfl, rfl, rfl⟩, ⟨rfl, rfl, rfl⟩, by decide, by decide⟩ ⟨by decide, by decide⟩ h1 sm ⟨hdc, hdc⟩
    ⟨Run.writer_iff.mpr (by rw [a7]; intro g hg; cases List.mem_singleton.mp hg; exact ⟨by decide, by decide +kernel⟩),
     Run.writer_iff.mpr (by
      rw [b7]; intro g hg
      rcases List.mem_cons.mp hg with rfl | hg
      · exact ⟨by decide, by decide +kernel⟩
      · cases List.mem_singleton.mp hg; trivial)⟩
    ⟨by simpa using a6, by simpa using b6⟩ (by omega)
  refine ⟨p, h1, sm, by rw [h3, h4, h5], ho.1, fun n q hr hq => ⟨?_, ?_⟩⟩
  · rw [(ho.2 n q hr hq [8, 9]).1, Run.writing_users, a7]; rfl
  · exact ((ho.2 n q hr hq [7]).2).trans (by rw [Run.writing_users, b7]; rfl)

end M3.Conn
