import Verif.Props.Conn.Retired

/- `ErrNotEstablished` is final: C114. -/

set_option autoImplicit false
set_option linter.unusedSimpArgs false

namespace M3.Conn

open Spec

namespace Final

open Lock

/-- While the state is AspActive after the queue of payloads was closed, somebody holds the lock: `Close`, about to change the state, or the monitor, about to panic. -/
def Gone (sh : Shared) (ss : List S) : Prop :=
  sh.dataClosed = true → sh.st = .active → ∃ (j : Nat) (s : S), ss[j]? = some s ∧ (s.ph = .data ∨ s.ph = .must)

theorem Gone.keep {sh sh' : Shared} {ss : List S} (h : Gone sh ss) {i : Nat} {s : S} (hs : ss[i]? = some s) (s' : S) (gs : List S)
    (h1 : s.ph = .data ∨ s.ph = .must → s'.ph = .data ∨ s'.ph = .must) (h2 : sh'.st = sh.st) (h3 : sh'.dataClosed = sh.dataClosed) :
    Gone sh' (ss.set i s' ++ gs) := by
  intro ha hb
  obtain ⟨j, t, ht, hp⟩ := h (h3 ▸ ha) (h2 ▸ hb)
  have hi : i < ss.length := (List.getElem?_eq_some_iff.mp hs).1
  have hj : j < ss.length := (List.getElem?_eq_some_iff.mp ht).1
  by_cases hij : i = j
  · subst hij
    cases Option.some.inj (hs.symm.trans ht)
    exact ⟨i, s', by rw [List.getElem?_append_left (by simpa using hi), List.getElem?_set_self hi], h1 hp⟩
  · exact ⟨j, t, by rw [List.getElem?_append_left (by simpa using hj), List.getElem?_set_ne hij]; exact ht, hp⟩

theorem Gone.mine {sh : Shared} {ss : List S} {i : Nat} {s : S} (hs : ss[i]? = some s) (s' : S) (gs : List S)
    (h1 : s'.ph = .data ∨ s'.ph = .must) : Gone sh (ss.set i s' ++ gs) := fun _ _ => by
  have hi : i < ss.length := (List.getElem?_eq_some_iff.mp hs).1
  exact ⟨i, s', by rw [List.getElem?_append_left (by simpa using hi), List.getElem?_set_self hi], h1⟩

theorem Gone.run {E : Env} {sh sh' : Shared} {ss : List S} {i : Nat} {s : S} {o : Op} {r : Resp o} (hi : I sh ss) (h : Gone sh ss) (hs : ss[i]? = some s)
    (hok : ok E s o) (hx : Exec sh o r sh') : Gone sh' (ss.set i (next s o r) ++ (spawned o).map born) := by
  have hk := hi.known i s hs
  cases hx with
  | lock hl =>
    have hok : s.ph = .out := hok
    exact h.keep hs _ _ (by simp [hok]) rfl rfl
  | unlock =>
    have hok : unlocks s := hok
    exact h.keep hs _ _ (by intro hp; rcases hp with hp | hp <;> simp [unlocks, hp] at hok) rfl rfl
  | getSt =>
    have hok : s.ph = .held := hok
    exact h.keep hs _ _ (by simp [hok]) rfl rfl
  | @putSt x =>
    rcases hok with ⟨-, y, h1⟩ | ⟨h1, rfl⟩
    · rw [h1] at hk
      have hk : y = sh.st := hk
      by_cases hm : x = .active ∧ y ≠ .active
      · exact Gone.mine hs _ _ (by simp [next, h1, hm])
      · intro ha hb
        have hb : x = .active := hb
        have hy : sh.st = .active := by
          by_cases hy : y = .active
          · rw [← hk, hy]
          · exact absurd ⟨hb, hy⟩ hm
        obtain ⟨j, t, ht, hp⟩ := h ha hy
        have : t.ph = .out ∨ t = s := by
          by_cases hij : j = i
          · subst hij; exact .inr (Option.some.inj (ht.symm.trans hs))
          · exact .inl (hi.alone hs ht hij (by simp [h1]))
        rcases this with h2 | rfl
        · simp [h2] at hp
        · simp [h1] at hp
    · intro _ hb; cases hb
  | closeEst hc =>
    obtain ⟨x, h1, -⟩ := (show ∃ x, s.ph = .saw x ∧ x ≠ .down from hok)
    exact h.keep hs _ _ (by simp [h1]) rfl rfl
  | closeAck hc =>
    have h1 : s.ph = .est := hok
    exact h.keep hs _ _ (by simp [h1]) rfl rfl
  | closeData hc => exact Gone.mine hs _ _ (.inl rfl)
  | @spawn g => exact h.keep hs _ _ (by cases g <;> exact id) rfl rfl
  | _ => exact h.keep hs _ _ id rfl rfl

theorem Gone.sync {E : Env} {sh sh' : Shared} {ss : List S} {i j : Nat} {si sj : S} {oi oj : Op} {ri : Resp oi} {rj : Resp oj} (hi : I sh ss)
    (h : Gone sh ss) (hij : i ≠ j) (hsi : ss[i]? = some si) (hsj : ss[j]? = some sj) (hoi : ok E si oi) (hx : Sync sh oi ri oj rj sh') :
    Gone sh' ((ss.set i (next si oi ri)).set j (next sj oj rj)) := by
  have hj' : (ss.set i (next si oi ri))[j]? = some sj := by rw [getElem?_set_ne' _ hij]; exact hsj
  have e : (next si oi ri).ph = si.ph → (next sj oj rj).ph = sj.ph → sh'.st = sh.st → sh'.dataClosed = sh.dataClosed →
      Gone sh' ((ss.set i (next si oi ri)).set j (next sj oj rj)) := by
    intro h1 h2 h3 h4
    have a := h.keep (sh' := sh) hsi (next si oi ri) [] (by rw [h1]; exact id) rfl rfl
    rw [List.append_nil] at a
    have b := a.keep (sh' := sh') hj' (next sj oj rj) [] (by rw [h2]; exact id) h3 h4
    rwa [List.append_nil] at b
  cases hx with
  | est hc =>
    intro ha _
    have := hi.data ha
    rw [hc] at this; cases this
  | _ => exact e rfl rfl rfl rfl

theorem pres (E : Env) : Pres (D E) (fun sh _ ss => I sh ss ∧ Gone sh ss) where
  env sh sh' tr ss h he := ⟨(Lock.pres E).env sh sh' tr ss h.1 he, by cases he <;> exact h.2⟩
  call sh tr ss c h hh := by
    refine ⟨h.1.call c, fun ha hb => ?_⟩
    obtain ⟨j, s, h1, h2⟩ := h.2 ha hb
    exact ⟨j, s, by rw [List.getElem?_append_left (List.getElem?_eq_some_iff.mp h1).1]; exact h1, h2⟩
  run sh sh' tr ss i g s o r h hs hok hx := ⟨trivial, h.1.run E hs hok.1 hx, Gone.run h.1 h.2 hs hok.1 hx⟩
  sync sh sh' tr ss i j gi gj si sj oi oj ri rj h hij hsi hsj hoi hoj hx :=
    ⟨trivial, trivial, h.1.sync E hij hsi hsj hoi.1 hx, Gone.sync h.1 h.2 hij hsi hsj hoi.1 hx⟩
  crash sh tr ss i g s o h h1 h2 h3 := ⟨(Lock.pres E).crash sh tr ss i g s o h.1 h1 h2 h3, h.2⟩

theorem closed_free {E : Env} {w : World} (h : Reachable E w) (hd : w.sh.dataClosed = true) (hl : w.sh.locked = false) : w.sh.st ≠ .active := by
  obtain ⟨ss, -, hi, hg⟩ := Disc.reach (I := fun sh _ ss => I sh ss ∧ Gone sh ss) (good E) (pres E) ⟨⟨rfl, fun j s hj => by
    rcases j with _ | _ | _ | j <;> simp [D, born] at hj <;> subst hj <;> trivial, nofun, nofun⟩, nofun⟩ h
  intro ha
  obtain ⟨j, s, h1, h2⟩ := hg hd ha
  have := hi.locked h1 (by rcases h2 with h2 | h2 <;> simp [h2])
  rw [hl] at this; cases this

/-- Nobody will observe AspActive again. -/
def Dead (w : World) : Prop := w.sh.dataClosed = true ∨ (w.sh.handed = true ∧ (w.sh.st ≠ .active ∨ ∃ hist k, Blocked w hist k))

theorem stays_closed {E : Env} {w w' : World} (hs : Step E w w') (h : w.sh.dataClosed = true) : w'.sh.dataClosed = true := by
  cases hs with
  | env _ he => cases he <;> exact h
  | run i g h' o k r _ _ hx => cases hx <;> first | exact h | rfl
  | sync i j gi gj hi hj oi oj ki kj ri rj _ _ _ _ hx => cases hx <;> exact h
  | _ => exact h

theorem looked_free {E : Env} {w w' : World} (hs : Step E w w') : ∃ l, w'.trace = w.trace ++ l ∧
    ∀ x ∈ l, ∀ s, observed? x.ev = some s → w.sh.st = s ∧ w.sh.locked = false := by
  cases hs with
  | run i g hist o k r _ ht hx =>
    refine ⟨_, rfl, fun x hm s hs => ?_⟩
    cases List.mem_singleton.mp hm
    cases o <;> simp only [observed?, reduceCtorEq, Option.some.injEq] at hs
    subst hs
    have : ∀ {sh sh' : Shared} {r : St}, Exec sh .state r sh' → sh.st = r ∧ sh.locked = false := fun h => by cases h; exact ⟨rfl, by assumption⟩
    exact this hx
  | sync i j gi gj hi hj oi oj ki kj ri rj _ _ _ _ hx =>
    refine ⟨_, rfl, fun x hm s hs => ?_⟩
    simp only [List.mem_cons, List.not_mem_nil, or_false] at hm
    rcases hm with rfl | rfl <;> cases hx <;> cases hs
  | env _ he => cases he <;> exact ⟨[], by simp, by simp⟩
  | call => exact ⟨[], by simp, by simp⟩
  | loop => exact ⟨[], by simp, by simp⟩
  | crash => exact ⟨[], by simp, by simp⟩

theorem Dead.step {E : Env} {a b : World} (ha : Reachable E a) (hs : Step E a b) (h : Dead a) :
    Dead b ∧ ∃ l, b.trace = a.trace ++ l ∧ ∀ x ∈ l, observed? x.ev ≠ some .active := by
  obtain ⟨l, h1, h2⟩ := looked_free hs
  rcases h with h | ⟨hh, h⟩
  · exact ⟨.inl (stays_closed hs h), l, h1, fun x hx ho => closed_free ha h (h2 x hx _ ho).2 (h2 x hx _ ho).1⟩
  · rcases h with h | ⟨hist, k, h⟩
    · refine ⟨.inr ⟨hs.handed hh, ?_⟩, l, h1, fun x hx ho => h (h2 x hx _ ho).1⟩
      by_cases h8 : b.sh.st = .active
      · obtain ⟨hist, k, h9⟩ := notifying ha hs h h8
        exact .inr ⟨hist, k, h9, handed_decided (Steps.trans ha (.tail (.refl _) hs)) (hs.handed hh)⟩
      · exact .inl h8
    · obtain ⟨h6, -, l', h7, h8⟩ := h.step ha hs
      refine ⟨.inr ⟨hs.handed hh, .inr ⟨hist, k, h6⟩⟩, l', h7, fun x hx ho => ?_⟩
      have := h8 x hx
      obtain ⟨i, g, o, r⟩ := x
      cases o <;> simp only [observed?, reduceCtorEq] at ho
      cases this

theorem Dead.steps {E : Env} {a b : World} (ha : Reachable E a) (hs : Steps E a b) (h : Dead a) :
    Dead b ∧ ∃ l, b.trace = a.trace ++ l ∧ ∀ x ∈ l, observed? x.ev ≠ some .active := by
  induction hs with
  | refl => exact ⟨h, [], by simp, by simp⟩
  | @tail b c hab hs ih =>
    obtain ⟨h1, l, h2, h3⟩ := ih
    obtain ⟨h4, l', h5, h6⟩ := h1.step (Steps.trans ha hab) hs
    refine ⟨h4, l ++ l', by rw [h5, h2, List.append_assoc], fun x hx => ?_⟩
    rcases List.mem_append.mp hx with hx | hx
    · exact h3 x hx
    · exact h6 x hx

/-- What makes a call fail. -/
def fatal : Ev → Bool
  | ⟨.state, s⟩ => s ≠ .active
  | ⟨.recvData, x⟩ => x = none
  | _ => false

theorem fatal_dead {E : Env} {w : World} (h : Reachable E w) {x : Rec} (hx : x ∈ w.trace) (hu : ofUser x.gor = true) (hf : fatal x.ev = true) : Dead w := by
  rw [Reachable] at h
  generalize hi : init E = w₀ at h
  induction h generalizing x with
  | refl => subst hi; cases hx
  | @tail a b hab hs ih =>
    subst hi
    have ha : Reachable E a := hab
    by_cases hm : x ∈ a.trace
    · exact (Dead.step ha hs (ih hm hu hf)).1
    · cases hs with
      | run i g hist o k r _ ht hx' =>
        rcases List.mem_append.mp hx with hx | hx
        · exact absurd hx hm
        · cases List.mem_singleton.mp hx
          simp only at hu hf
          have hh : a.sh.handed = true := by
            cases g <;> simp only [ofUser, Bool.false_eq_true] at hu
            exact api_handed ha (List.mem_of_getElem? ht) rfl
          cases hx' <;> simp only [fatal, Bool.false_eq_true, decide_eq_true_eq, reduceCtorEq, ne_eq] at hf
          · exact .inr ⟨hh, .inl hf⟩
          · exact .inl (by assumption)
      | sync i j gi gj hi hj oi oj ki kj ri rj _ _ _ _ hx' =>
        rcases List.mem_append.mp hx with hx | hx
        · exact absurd hx hm
        · simp only [List.mem_cons, List.not_mem_nil, or_false] at hx
          rcases hx with rfl | rfl <;> cases hx' <;> cases hf
      | env _ he => cases he <;> exact absurd hx hm
      | call => exact absurd hx hm
      | loop => exact absurd hx hm
      | crash => exact absurd hx hm

/-- A call that fails has a reason. -/
def Reason (s : List Ev) (o : Op) : Prop := o = .done (.fail .notEstablished) → ∃ e ∈ s, fatal e = true

theorem reason (E : Env) (c : Api) (hc : payloadCall c = true) : WP (Hist Reason) (.api c) (fun _ _ => True) [] (body E (.api c)) := by
  cases c <;> simp only [payloadCall, Bool.false_eq_true] at hc <;>
    wp_code [Hist.ok_eq, Hist.may_eq, Hist.next_eq, Reason, Facts.may, List.nil_append, List.append_assoc, List.cons_append, fatal] <;>
    simp +contextual

theorem failed_dead {E : Env} {w : World} (h : Reachable E w) {i : Nat} {t : Thread} (ht : w.threads[i]? = some t) {c : Api} (hc : t.gor = .api c)
    (hp : payloadCall c = true) (hf : .fail .notEstablished ∈ returns (w.of i)) : Dead w := by
  obtain ⟨x, hx, hr⟩ := List.mem_filterMap.mp hf
  obtain ⟨l₁, l₂, hl⟩ := List.append_of_mem hx
  have hP := Hist.api h ht hc (reason E c hp) hl
  obtain ⟨j, g, o, r⟩ := x
  cases o <;> simp only [returned?, reduceCtorEq, Option.some.injEq] at hr
  subst hr
  obtain ⟨e, he, hfe⟩ := hP rfl
  obtain ⟨y, hy, rfl⟩ := List.mem_map.mp he
  have hy' : y ∈ w.of i := by rw [hl]; exact List.mem_append_left _ hy
  refine fatal_dead h (List.mem_filter.mp hy').1 ?_ hfe
  obtain ⟨-, h4⟩ := Follows.once h ht hc rfl
  rw [h4] at hy'
  obtain ⟨e', -, rfl⟩ := List.mem_map.mp hy'
  rfl

/-- The argument of `c102_calls`. -/
theorem unseen {E : Env} {w₁ w : World} (h : Reachable E w₁) (hs : Steps E w₁ w) {l : List Rec} (h3 : w.trace = w₁.trace ++ l)
    (h4 : ∀ x ∈ l, observed? x.ev ≠ some .active) {i : Nat} {t : Thread} (ht : w.threads[i]? = some t) {c : Api} (hc : t.gor = .api c)
    (hp : payloadCall c = true) (hi : w₁.threads.length ≤ i) :
    sends (w.of i) = [] ∧ takes (w.of i) = [] ∧ ∀ r ∈ returns (w.of i), r = .fail .notEstablished := by
  have hw : Reachable E w := Steps.trans h hs
  have key : ∀ x ∈ w.of i, observed? x.ev ≠ some .active := by
    intro x hx
    obtain ⟨h5, h6⟩ := List.mem_filter.mp hx
    rw [h3] at h5
    rcases List.mem_append.mp h5 with h5 | h5
    · have := (Follows.reach h).1 x h5
      have h6 : x.tid = i := by simpa using h6
      omega
    · exact h4 x h5
  have at' : ∀ x ∈ w.of i, (∀ b s, x.ev.op ≠ .write b s) ∧ x.ev.op ≠ .recvData ∧
      ∀ r, x.ev.op = .done r → r = .fail .notEstablished := by
    intro x hx
    obtain ⟨l₁, l₂, hl⟩ := List.append_of_mem hx
    have hP := Hist.api hw ht hc (looked E c hp) hl
    have hn : St.active ∉ (l₁.map Rec.ev).filterMap observed? := by
      intro hm
      rw [List.filterMap_map] at hm
      obtain ⟨y, hy, ho⟩ := List.mem_filterMap.mp hm
      exact key y (by rw [hl]; exact List.mem_append_left _ hy) ho
    refine ⟨?_, ?_, ?_⟩
    · intro b s e; rw [e] at hP; exact hn hP
    · intro e; rw [e] at hP; exact hn hP
    · intro r e; rw [e] at hP; exact hP.resolve_left hn
  refine ⟨List.filterMap_eq_nil_iff.mpr fun x hx => ?_, List.filterMap_eq_nil_iff.mpr fun x hx => ?_, fun r hr => ?_⟩
  · obtain ⟨a1, -, -⟩ := at' x hx
    obtain ⟨i, g, o, r⟩ := x
    cases o <;> first | rfl | exact absurd rfl (a1 _ _)
  · obtain ⟨-, a2, -⟩ := at' x hx
    obtain ⟨i, g, o, r⟩ := x
    cases o <;> first | rfl | exact absurd rfl a2
  · obtain ⟨x, hx, hr⟩ := List.mem_filterMap.mp hr
    obtain ⟨-, -, a3⟩ := at' x hx
    obtain ⟨i, g, o, r'⟩ := x
    cases o <;> simp only [returned?, reduceCtorEq, Option.some.injEq] at hr
    exact a3 _ (by rw [hr])

end Final

/-- C114: once a call of `Read`, `ReadPD` or one of the `Write` methods has returned `ErrNotEstablished`, whatever the reason, every call of any of these methods
made from then on sends nothing, takes nothing, and returns `ErrNotEstablished` if it returns; and nobody observes AspActive any more. -/
theorem c114_final {E : Env} {w₁ w : World} (h : Reachable E w₁) {i : Nat} {t : Thread} (ht : w₁.threads[i]? = some t) {c : Api} (hc : t.gor = .api c)
    (hp : payloadCall c = true) (hf : .fail .notEstablished ∈ returns (w₁.of i)) (hs : Steps E w₁ w) :
    (∃ l, w.trace = w₁.trace ++ l ∧ ∀ x ∈ l, observed? x.ev ≠ some .active) ∧
    ∀ (j : Nat) (t' : Thread) (c' : Api), w.threads[j]? = some t' → t'.gor = .api c' → payloadCall c' = true → w₁.threads.length ≤ j →
      sends (w.of j) = [] ∧ takes (w.of j) = [] ∧ ∀ r ∈ returns (w.of j), r = .fail .notEstablished := by
  obtain ⟨-, l, h1, h2⟩ := (Final.failed_dead h ht hc hp hf).steps h hs
  exact ⟨⟨l, h1, h2⟩, fun j t' c' ht' hc' hp' hj => Final.unseen h hs h1 h2 ht' hc' hp' hj⟩

/-- C114: so it is after the connection was closed while it was up: once the queue of payloads is closed, no call made from then on gets or sends any. -/
theorem c114_closed {E : Env} {w₁ w : World} (h : Reachable E w₁) (hd : ∃ x ∈ w₁.trace, x.ev.op = .closeData) (hs : Steps E w₁ w)
    {j : Nat} {t : Thread} (ht : w.threads[j]? = some t) {c : Api} (hc : t.gor = .api c) (hp : payloadCall c = true) (hj : w₁.threads.length ≤ j) :
    sends (w.of j) = [] ∧ takes (w.of j) = [] ∧ ∀ r ∈ returns (w.of j), r = .fail .notEstablished := by
  have hcl : w₁.sh.dataClosed = true := by
    obtain ⟨x, hx, ho⟩ := hd
    clear hs ht hj
    rw [Reachable] at h
    generalize hi : init E = w₀ at h
    induction h with
    | refl => subst hi; cases hx
    | @tail a b hab hst ih =>
      by_cases hm : x ∈ a.trace
      · exact Final.stays_closed hst (ih hm)
      · cases hst with
        | run i g hist o k r _ ht hx' =>
          rcases List.mem_append.mp hx with hx | hx
          · exact absurd hx hm
          · cases List.mem_singleton.mp hx
            simp only at ho
            subst ho
            cases hx'; rfl
        | sync i j gi gj hi hj oi oj ki kj ri rj _ _ _ _ hx' =>
          rcases List.mem_append.mp hx with hx | hx
          · exact absurd hx hm
          · simp only [List.mem_cons, List.not_mem_nil, or_false] at hx
            rcases hx with rfl | rfl <;> cases hx' <;> cases ho
        | env _ he => cases he <;> exact absurd hx hm
        | call => exact absurd hx hm
        | loop => exact absurd hx hm
        | crash => exact absurd hx hm
  obtain ⟨-, l, h1, h2⟩ := Final.Dead.steps h hs (.inl hcl)
  exact Final.unseen h hs h1 h2 ht hc hp hj

/-- For `c114_final` and `c114_closed`: `Read` waits, the connection is closed, `Read` fails; a `WriteToStream` after that fails, too. -/
example : ∃ w₁ w t, Reachable E₀ w₁ ∧ w₁.threads[5]? = some t ∧ t.gor = .api (.read 10) ∧ returns (w₁.of 5) = [.fail .notEstablished] ∧
    (∃ x ∈ w₁.trace, x.ev.op = .closeData) ∧ Steps E₀ w₁ w ∧ w₁.threads.length = 7 ∧
    (w.threads[7]?.map Thread.gor, returns (w.of 7)) = (some (.api (.writeToStream [8, 9] 1)), [.fail .notEstablished]) := by
  obtain ⟨w₁, w₂, w, h1, h2, h3, h4⟩ := reach_step (E := E₀) (cs := opening .client ++ [.call (.read 10)] ++ go 5 1 ++ [.call .close] ++ go 6 9 ++ go 5 2)
    (c := .call (.writeToStream [8, 9] 1)) (ds := go 7 2)
    (f := fun w₁ w₂ w => (w₁.threads[5]?.map Thread.gor, returns (w₁.of 5), w₁.trace.any (fun x => x.ev.op = .closeData), w₁.threads.length,
      w.threads[7]?.map Thread.gor, returns (w.of 7)))
    (v := (some (.api (.read 10)), [.fail .notEstablished], true, 7, some (.api (.writeToStream [8, 9] 1)), [.fail .notEstablished])) (by kernel_rfl)
  simp only [Prod.mk.injEq, Option.map_eq_some_iff, List.any_eq_true, decide_eq_true_eq] at h4
  obtain ⟨⟨t, h5, h6⟩, h7, h8, h9, h10, h11⟩ := h4
  exact ⟨w₁, w, t, h1, h5, h6, h7, h8, Steps.trans (.tail (.refl _) h2) h3, h9, by rw [h11, Option.map_eq_some_iff.mpr h10]⟩

end M3.Conn
