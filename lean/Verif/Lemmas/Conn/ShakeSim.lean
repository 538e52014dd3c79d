import Verif.Lemmas.Conn.ShakeGood

/- The abstract handshake covers all executions of the model, and only those. -/

set_option autoImplicit false
set_option linter.unusedSimpArgs false

namespace M3.Conn

/-- The result of `Dial` / `Accept` at a trace entry, if any. -/
def opened? : Ev → Option OpenRes
  | ⟨.opened r, _⟩ => some r
  | _ => none

/-- The results of `Dial` / `Accept`. -/
def World.openings (w : World) : List OpenRes := w.trace.filterMap fun x => opened? x.ev

/-- What was handed to SCTP, without SCTP's answers. -/
def World.posted (w : World) : List (Bytes × UInt16 × UInt32) := (Spec.sends w.trace).map fun s => (s.bytes, s.stream, s.ppid)

namespace Shake

open Spec (sends sent?)

variable (E : Env) (B : Sig → Bytes)

/-- The messages handled by goroutines 4 and 5. -/
def got : Nat → Sig
  | 4 => match E.mode with | .client => .upAck | .server => .up
  | _ => match E.mode with | .client => .actAck | .server => .act

/-- The code of goroutine `n`. -/
def gorOf : Nat → Gor
  | 3 => .heartbeat
  | n => .packet (B (got E n))

/-- `Runs l p`: `p` performs the operations of `l`, provided they have the results given there. -/
def Runs : List Tok → Prog (Option Gor) → Prop
  | [], p => p = .ret none
  | .lock :: l, p => ∃ k, p = .op .lock k ∧ Runs l (k ())
  | .unlock :: l, p => ∃ k, p = .op .unlock k ∧ Runs l (k ())
  | .getSt s :: l, p => ∃ k, p = .op .getSt k ∧ Runs l (k s)
  | .putSt s :: l, p => ∃ k, p = .op (.putSt s) k ∧ Runs l (k ())
  | .info :: l, p => ∃ k, p = .op .info k ∧ Runs l (k ⟨3, 0⟩)
  | .write x :: l, p => ∃ k, p = .op (.write (B x) ⟨3, 0⟩) k ∧ ∀ n, Runs l (k (some n))
  | .read x :: l, p => ∃ k, p = .op (.read 1500) k ∧ Runs l (k (some (B x)))
  | .idle :: _, p => ∃ k, p = .op (.read 1500) k
  | .spawn n :: l, p => ∃ k, p = .op (.spawn (gorOf E B n)) k ∧ Runs l (k ())
  | .sendSt s :: l, p => ∃ k, p = .op (.sendState s) k ∧ Runs l (k ())
  | .recvSt s :: l, p => ∃ k, p = .op .monSelect k ∧ Runs l (k (.state s))
  | .ctx :: l, p => ∃ k, p = .op .ctxDone k ∧ Runs l (k false)
  | .state s :: l, p => ∃ k, p = .op .state k ∧ Runs l (k s)
  | .sendEst :: l, p => ∃ k, p = .op .sendEst k ∧ Runs l (k ())
  | .recvEst :: l, p => ∃ k, p = .op .estSelect k ∧ Runs l (k .ok)
  | .broadcast :: l, p => ∃ k, p = .op .broadcast k ∧ Runs l (k ())
  | .opened :: l, p => ∃ k, p = .op (.opened .conn) k ∧ Runs l (k ())
  | .waitEnter :: l, p => ∃ k, p = .op .waitEnter k ∧ Runs l (k ())
  | .waitLeave :: l, p => ∃ k, p = .op .waitLeave k ∧ Runs l (k ())
  | .loop :: l, p => ∃ g, p = .ret (some g) ∧ Runs l (body E g)

/-- What is needed of the endpoint: messages fit the buffer of the monitor, and the scripts are right. -/
structure Fits : Prop where
  len : ∀ x, (B x).length ≤ 1500
  code : ∀ n, 3 ≤ n → n ≤ 5 → Runs E B (script E.mode n) (body E (gorOf E B n))
  main : Runs E B (script E.mode 0) (body E .main)
  start : Runs E B (script E.mode 1) (body E .start)
  mon : Runs E B (script E.mode 2) (body E .monitor)

/-- The abstract state `a` describes `w`. -/
structure At (a : A) (w : World) : Prop where
  st : w.sh.st = a.st
  locked : w.sh.locked = a.locked
  handed : w.sh.handed = a.handed
  cond : w.sh.cond = a.cond
  inbox : w.sh.inbox = a.inbox.map B
  est : w.sh.estClosed = false
  sctp : w.sh.sctpClosed = false
  ctx : w.sh.ctxDone = false
  info : w.sh.info = ⟨3, 0⟩
  crashed : w.sh.crashed = false
  len : w.threads.length = a.pcs.length
  th : ∀ i t pc, w.threads[i]? = some t → a.pcs[i]? = some pc → Runs E B ((script E.mode i).drop pc) t.prog
  posted : w.posted = ((outSigs E.mode).take a.sent).map fun x => (B x, 0, 3)
  opened : w.openings = List.replicate a.opened .conn

variable {E B}

theorem at_init (hf : Fits E B) : At E B .init (init E) where
  st := rfl
  locked := rfl
  handed := rfl
  cond := rfl
  inbox := rfl
  est := rfl
  sctp := rfl
  ctx := rfl
  info := rfl
  crashed := rfl
  len := rfl
  th := fun i t pc h1 h2 => by
    match i with
    | 0 => cases h1; cases h2; exact hf.main
    | 1 => cases h1; cases h2; exact hf.start
    | 2 => cases h1; cases h2; exact hf.mon
    | i + 3 => cases h1
  posted := by simp [World.posted, init, sends, A.init]
  opened := rfl

/-! ### The list of successors -/

theorem mem_syncs {m : Mode} {a : A} {i pi : Nat} {ti : Tok} {x : Option A} (l : List Nat) (n : Nat) :
    x ∈ syncs m a i pi ti n l ↔ ∃ j pj tj, l[j]? = some pj ∧ tok? m (n + j) pj = some tj ∧ x ∈ syncT a i pi ti (n + j) pj tj := by
  induction l generalizing n with
  | nil => simp [syncs]
  | cons p l ih =>
    have key : (∃ j pj tj, (p :: l)[j]? = some pj ∧ tok? m (n + j) pj = some tj ∧ x ∈ syncT a i pi ti (n + j) pj tj) ↔
        (∃ tj, tok? m n p = some tj ∧ x ∈ syncT a i pi ti n p tj) ∨
        ∃ j pj tj, l[j]? = some pj ∧ tok? m (n + 1 + j) pj = some tj ∧ x ∈ syncT a i pi ti (n + 1 + j) pj tj := by
      constructor
      · rintro ⟨j, pj, tj, h1, h2, h3⟩
        cases j with
        | zero => cases h1; exact .inl ⟨tj, h2, h3⟩
        | succ j =>
          rw [show n + (j + 1) = n + 1 + j by omega] at h2 h3
          exact .inr ⟨j, pj, tj, h1, h2, h3⟩
      · rintro (⟨tj, h2, h3⟩ | ⟨j, pj, tj, h1, h2, h3⟩)
        · exact ⟨0, p, tj, rfl, h2, h3⟩
        · rw [show n + 1 + j = n + (j + 1) by omega] at h2 h3
          exact ⟨j + 1, pj, tj, h1, h2, h3⟩
    rw [key, ← ih, syncs]
    cases tok? m n p with
    | none => simp
    | some t => simp

theorem mem_succsFrom {m : Mode} {a : A} {x : Option A} (l : List Nat) (n : Nat) :
    x ∈ succsFrom m a n l ↔ ∃ i pc t, l[i]? = some pc ∧ tok? m (n + i) pc = some t ∧
      x ∈ (if t.sends then syncs m a (n + i) pc t 0 a.pcs else runT m a (n + i) pc t) := by
  induction l generalizing n with
  | nil => simp [succsFrom]
  | cons p l ih =>
    have key : (∃ i pc t, (p :: l)[i]? = some pc ∧ tok? m (n + i) pc = some t ∧
        x ∈ (if t.sends then syncs m a (n + i) pc t 0 a.pcs else runT m a (n + i) pc t)) ↔
        (∃ t, tok? m n p = some t ∧ x ∈ (if t.sends then syncs m a n p t 0 a.pcs else runT m a n p t)) ∨
        ∃ i pc t, l[i]? = some pc ∧ tok? m (n + 1 + i) pc = some t ∧
          x ∈ (if t.sends then syncs m a (n + 1 + i) pc t 0 a.pcs else runT m a (n + 1 + i) pc t) := by
      constructor
      · rintro ⟨j, pj, tj, h1, h2, h3⟩
        cases j with
        | zero => cases h1; exact .inl ⟨tj, h2, h3⟩
        | succ j =>
          rw [show n + (j + 1) = n + 1 + j by omega] at h2 h3
          exact .inr ⟨j, pj, tj, h1, h2, h3⟩
      · rintro (⟨tj, h2, h3⟩ | ⟨j, pj, tj, h1, h2, h3⟩)
        · exact ⟨0, p, tj, rfl, h2, h3⟩
        · rw [show n + 1 + j = n + (j + 1) by omega] at h2 h3
          exact ⟨j + 1, pj, tj, h1, h2, h3⟩
    rw [key, ← ih, succsFrom]
    cases tok? m n p with
    | none => simp
    | some t => simp

theorem mem_succs {m : Mode} {a : A} {x : Option A} : x ∈ succs m a ↔ ∃ i pc t, a.pcs[i]? = some pc ∧ tok? m i pc = some t ∧
    x ∈ (if t.sends then syncs m a i pc t 0 a.pcs else runT m a i pc t) := by
  have := mem_succsFrom (m := m) (a := a) (x := x) a.pcs 0
  simp only [Nat.zero_add] at this
  exact this

theorem succs_run {m : Mode} {a : A} {x : Option A} {i pc : Nat} {t : Tok} (h1 : a.pcs[i]? = some pc) (h2 : tok? m i pc = some t)
    (h3 : t.sends = false) (h4 : x ∈ runT m a i pc t) : x ∈ succs m a :=
  mem_succs.mpr ⟨i, pc, t, h1, h2, by rw [h3]; exact h4⟩

theorem succs_sync {m : Mode} {a : A} {x : Option A} {i pi j pj : Nat} {ti tj : Tok} (h1 : a.pcs[i]? = some pi)
    (h2 : tok? m i pi = some ti) (h3 : ti.sends = true) (h4 : a.pcs[j]? = some pj) (h5 : tok? m j pj = some tj)
    (h6 : x ∈ syncT a i pi ti j pj tj) : x ∈ succs m a :=
  mem_succs.mpr ⟨i, pi, ti, h1, h2, by
    rw [if_pos h3]
    exact (mem_syncs a.pcs 0).mpr ⟨j, pj, tj, h4, by rwa [Nat.zero_add], by rwa [Nat.zero_add]⟩⟩

theorem drop_tok {m : Mode} {i pc : Nat} {t : Tok} {l : List Tok} (h : (script m i).drop pc = t :: l) :
    tok? m i pc = some t ∧ (script m i).drop (pc + 1) = l := by
  constructor
  · have := congrArg (·[0]?) h
    simpa [tok?, List.getElem?_drop] using this
  · have := congrArg (List.drop 1) h
    simpa [List.drop_drop] using this

theorem tok_drop {m : Mode} {i pc : Nat} {t : Tok} (h : tok? m i pc = some t) :
    (script m i).drop pc = t :: (script m i).drop (pc + 1) := by
  obtain ⟨hlt, he⟩ := List.getElem?_eq_some_iff.mp h
  rw [List.drop_eq_getElem_cons hlt, he]

/-! ### Traces -/

theorem posted_concat (sh sh' : Shared) (ts ts' : List Thread) (tr : List Rec) (x : Rec) :
    World.posted ⟨sh', ts', tr ++ [x]⟩ = World.posted ⟨sh, ts, tr⟩ ++ ((sent? x.ev).toList.map fun s => (s.bytes, s.stream, s.ppid)) := by
  simp only [World.posted, sends, List.filterMap_append, List.map_append]
  cases h : sent? x.ev <;> simp [h]

theorem posted_concat₂ (sh sh' : Shared) (ts ts' : List Thread) (tr : List Rec) (x y : Rec) :
    (World.mk sh' ts' (tr ++ [x, y])).posted =
      (World.mk sh ts tr).posted ++ (sent? x.ev).toList.map (fun s => (s.bytes, s.stream, s.ppid)) ++
        (sent? y.ev).toList.map (fun s => (s.bytes, s.stream, s.ppid)) := by
  rw [show tr ++ [x, y] = (tr ++ [x]) ++ [y] by simp, posted_concat sh' _ ts', posted_concat sh _ ts]

theorem openings_concat₂ (sh sh' : Shared) (ts ts' : List Thread) (tr : List Rec) (x y : Rec) :
    (World.mk sh' ts' (tr ++ [x, y])).openings =
      (World.mk sh ts tr).openings ++ (opened? x.ev).toList ++ (opened? y.ev).toList := by
  simp [World.openings, List.filterMap_append]
  cases h : opened? x.ev <;> cases h' : opened? y.ev <;> simp [h, h']

theorem openings_concat (sh sh' : Shared) (ts ts' : List Thread) (tr : List Rec) (x : Rec) :
    World.openings ⟨sh', ts', tr ++ [x]⟩ = World.openings ⟨sh, ts, tr⟩ ++ (opened? x.ev).toList := by
  simp only [World.openings, List.filterMap_append]
  cases h : opened? x.ev <;> simp [h]

/-- Threads after one of them moved on. -/
theorem th_set {a : A} {w : World} (h : At E B a w) {i pc : Nat} (t' : Thread)
    (hr : Runs E B ((script E.mode i).drop (pc + 1)) t'.prog) :
    ∀ j t q, (w.threads.set i t')[j]? = some t → (a.pcs.set i (pc + 1))[j]? = some q → Runs E B ((script E.mode j).drop q) t.prog := by
  intro j t q h1 h2
  by_cases hj : i = j
  · subst hj
    rw [List.getElem?_set_self'] at h1 h2
    cases h3 : w.threads[i]? with
    | none => rw [h3] at h1; cases h1
    | some x =>
      cases h4 : a.pcs[i]? with
      | none => rw [h4] at h2; cases h2
      | some y => rw [h3] at h1; rw [h4] at h2; cases h1; cases h2; exact hr
  · rw [List.getElem?_set_ne hj] at h1 h2
    exact h.th j t q h1 h2

/-! ### Simulation -/

/-- Every step of an endpoint is foreseen. -/
theorem At.work {a : A} {w w' : World} (hf : Fits E B) (h : At E B a w) (hw : Work E w w') :
    none ∈ succs E.mode a ∨ ∃ a', some a' ∈ succs E.mode a ∧ At E B a' w' := by
  have pc_of : ∀ {i : Nat} {t : Thread}, w.threads[i]? = some t → ∃ pc, a.pcs[i]? = some pc ∧
      Runs E B ((script E.mode i).drop pc) t.prog := by
    intro i t ht
    have hlt : i < a.pcs.length := by rw [← h.len]; exact (List.getElem?_eq_some_iff.mp ht).1
    exact ⟨_, List.getElem?_eq_getElem hlt, h.th i t _ ht (List.getElem?_eq_getElem hlt)⟩
  obtain ⟨sh, ts, tr⟩ := w
  cases hw with
  | crash i g hi o k hc ht hx =>
    exfalso
    obtain ⟨pc, -, hr⟩ := pc_of ht
    cases hd : (script E.mode i).drop pc with
    | nil => rw [hd, Runs] at hr; cases hr
    | cons t l =>
      rw [hd] at hr
      have he : sh.estClosed = false := h.est
      cases t with
      | idle => obtain ⟨k', hk⟩ := hr; cases hk; cases hx
      | sendEst => obtain ⟨k', hk, -⟩ := hr; cases hk; cases hx; simp_all
      | loop => obtain ⟨k', hk, -⟩ := hr; cases hk
      | _ => obtain ⟨k', hk, -⟩ := hr; cases hk; cases hx
  | loop i g g' hi hc ht =>
    obtain ⟨pc, hp, hr⟩ := pc_of ht
    cases hd : (script E.mode i).drop pc with
    | nil => rw [hd, Runs] at hr; cases hr
    | cons t l =>
      obtain ⟨htok, hl⟩ := drop_tok hd
      rw [hd] at hr
      cases t <;> (obtain ⟨k', hk, hr⟩ := hr) <;> cases hk
      rw [← hl] at hr
      refine .inr ⟨{ a with pcs := a.pcs.set i (pc + 1) }, succs_run hp htok rfl (by simp [runT]), ?_⟩
      exact { h with
        len := by simpa using h.len
        th := th_set h _ hr }
  | sync i j gi gj hi hj oi oj ki kj ri rj hc hij hti htj hx =>
    obtain ⟨pi, hpi, hri⟩ := pc_of hti
    obtain ⟨pj, hpj, hrj⟩ := pc_of htj
    cases hdi : (script E.mode i).drop pi with
    | nil => rw [hdi, Runs] at hri; cases hri
    | cons t l =>
    cases hdj : (script E.mode j).drop pj with
    | nil => rw [hdj, Runs] at hrj; cases hrj
    | cons t' l' =>
    obtain ⟨htoki, hli⟩ := drop_tok hdi
    obtain ⟨htokj, hlj⟩ := drop_tok hdj
    rw [hdi] at hri
    rw [hdj] at hrj
    have two : ∀ (ti' tj' : Thread), Runs E B ((script E.mode i).drop (pi + 1)) ti'.prog →
        Runs E B ((script E.mode j).drop (pj + 1)) tj'.prog →
        ∀ n t q, ((ts.set i ti').set j tj')[n]? = some t → ((a.pcs.set i (pi + 1)).set j (pj + 1))[n]? = some q →
          Runs E B ((script E.mode n).drop q) t.prog := by
      intro ti' tj' h1 h2
      have h' : At E B { a with pcs := a.pcs.set i (pi + 1) } ⟨sh, ts.set i ti', tr⟩ := { h with
        len := by simpa using h.len
        th := th_set h _ h1 }
      exact th_set h' _ h2
    cases hx with
    | state =>
      cases t <;> (obtain ⟨ki', hki, hri⟩ := hri) <;> cases hki
      rename_i s
      cases t' <;> (obtain ⟨kj', hkj, hrj⟩ := hrj) <;> cases hkj
      rename_i s'
      by_cases hs : s = s'
      · subst hs
        refine .inr ⟨_, succs_sync hpi htoki rfl hpj htokj (by simp [syncT]; rfl), ?_⟩
        refine { h with
          len := by simpa using h.len
          th := two _ _ (hli ▸ hri) (hlj ▸ hrj)
          posted := ?_
          opened := ?_ }
        · rw [posted_concat₂ sh _ ts]; simpa [sent?] using h.posted
        · rw [openings_concat₂ sh _ ts]; simpa [opened?] using h.opened
      · exact .inl (succs_sync hpi htoki rfl hpj htokj (by simp [syncT, hs]))
    | err => cases t <;> (obtain ⟨ki', hki, hri⟩ := hri) <;> cases hki
    | est =>
      cases t <;> (obtain ⟨ki', hki, hri⟩ := hri) <;> cases hki
      cases t' <;> (obtain ⟨kj', hkj, hrj⟩ := hrj) <;> cases hkj
      refine .inr ⟨_, succs_sync hpi htoki rfl hpj htokj (by simp [syncT]; rfl), ?_⟩
      refine { h with
        handed := rfl
        len := by simpa using h.len
        th := two _ _ (hli ▸ hri) (hlj ▸ hrj)
        posted := ?_
        opened := ?_ }
      · rw [posted_concat₂ sh _ ts]; simpa [sent?] using h.posted
      · rw [openings_concat₂ sh _ ts]; simpa [opened?] using h.opened
    | ack => cases t <;> (obtain ⟨ki', hki, hri⟩ := hri) <;> cases hki
  | run i g hi o k r hc ht hx hcalm =>
    obtain ⟨pc, hp, hr⟩ := pc_of ht
    cases hd : (script E.mode i).drop pc with
    | nil => rw [hd, Runs] at hr; cases hr
    | cons t l =>
    obtain ⟨htok, hl⟩ := drop_tok hd
    rw [hd] at hr
    -- steps that change neither output nor the list of goroutines
    have quiet : ∀ (a' : A) (sh' : Shared), sent? ⟨o, r⟩ = none → opened? ⟨o, r⟩ = none → spawned o = [] →
        a'.pcs = a.pcs.set i (pc + 1) → a'.sent = a.sent → a'.opened = a.opened →
        Runs E B l (k r) → sh'.st = a'.st → sh'.locked = a'.locked → sh'.handed = a'.handed → sh'.cond = a'.cond →
        sh'.inbox = a'.inbox.map B → sh'.estClosed = false → sh'.sctpClosed = false → sh'.ctxDone = false →
        sh'.info = ⟨3, 0⟩ → sh'.crashed = false →
        At E B a' ⟨sh', ts.set i ⟨g, hi ++ [⟨o, r⟩], k r⟩ ++ (spawned o).map (Thread.fresh E), tr ++ [⟨i, g, o, r⟩]⟩ := by
      intro a' sh' e1 e2 e3 e4 e5 e6 e7 f1 f2 f3 f4 f5 f6 f7 f8 f9 f10
      rw [e3, List.map_nil, List.append_nil]
      refine ⟨f1, f2, f3, f4, f5, f6, f7, f8, f9, f10, ?_, ?_, ?_, ?_⟩
      · rw [e4]; simpa using h.len
      · rw [e4]
        refine th_set h _ ?_
        rw [hl]; exact e7
      · rw [posted_concat sh _ ts, e1, e5]; simpa using h.posted
      · rw [openings_concat sh _ ts, e2, e6]; simpa using h.opened
    have hst := h.st; have hlk := h.locked; have hhd := h.handed; have hco := h.cond; have hin := h.inbox
    have hes := h.est; have hsc := h.sctp; have hct := h.ctx; have hif := h.info; have hcr := h.crashed
    dsimp only at hst hlk hhd hco hin hes hsc hct hif hcr
    cases t with
    | lock =>
      obtain ⟨k', hk, hr⟩ := hr; cases hk; cases hx with
      | lock hf' =>
        have hf2 : a.locked = false := hlk ▸ hf'
        refine .inr ⟨_, succs_run hp htok rfl (by simp [runT, hf2]; rfl), ?_⟩
        exact quiet _ _ rfl rfl rfl rfl rfl rfl hr hst rfl hhd hco hin hes hsc hct hif hcr
    | unlock =>
      obtain ⟨k', hk, hr⟩ := hr; cases hk; cases hx
      refine .inr ⟨_, succs_run hp htok rfl (by simp [runT]; rfl), ?_⟩
      exact quiet _ _ rfl rfl rfl rfl rfl rfl hr hst rfl hhd hco hin hes hsc hct hif hcr
    | getSt s =>
      obtain ⟨k', hk, hr⟩ := hr; cases hk; cases hx
      by_cases hs : a.st = s
      · refine .inr ⟨_, succs_run hp htok rfl (by simp [runT, hs]; rfl), ?_⟩
        refine quiet _ _ rfl rfl rfl rfl rfl rfl ?_ (hst.trans hs) hlk hhd hco hin hes hsc hct hif hcr
        show Runs E B l (k' sh.st)
        rw [hst, hs]; exact hr
      · exact .inl (succs_run hp htok rfl (by simp [runT, hs]))
    | putSt s =>
      obtain ⟨k', hk, hr⟩ := hr; cases hk; cases hx
      refine .inr ⟨_, succs_run hp htok rfl (by simp [runT]; rfl), ?_⟩
      exact quiet _ _ rfl rfl rfl rfl rfl rfl hr rfl hlk hhd hco hin hes hsc hct hif hcr
    | info =>
      obtain ⟨k', hk, hr⟩ := hr; cases hk; cases hx
      refine .inr ⟨_, succs_run hp htok rfl (by simp [runT]; rfl), ?_⟩
      refine quiet _ _ rfl rfl rfl rfl rfl rfl ?_ hst hlk hhd hco hin hes hsc hct hif hcr
      rw [hif]; exact hr
    | write x =>
      obtain ⟨k', hk, hr⟩ := hr; cases hk; cases hx with
      | writeFail => cases hcalm
      | write hf' =>
        rename_i n
        by_cases hs : (outSigs E.mode)[a.sent]? = some x
        · refine .inr ⟨_, succs_run hp htok rfl (by simp [runT, hs]; rfl), ?_⟩
          refine ⟨hst, hlk, hhd, hco, hin, hes, hsc, hct, hif, hcr, by simpa [spawned] using h.len, ?_, ?_, ?_⟩
          · simp only [spawned, List.map_nil, List.append_nil]
            refine th_set h _ ?_
            rw [hl]; exact hr n
          · rw [posted_concat sh _ ts, h.posted, List.take_add_one, hs]
            simp [sent?]
          · rw [openings_concat sh _ ts]; simpa [opened?] using h.opened
        · exact .inl (succs_run hp htok rfl (by simp [runT, hs]))
    | read x =>
      obtain ⟨k', hk, hr⟩ := hr; cases hk; cases hx with
      | readFail => cases hcalm
      | read h1 h2 h3 =>
        rename_i d q
        cases hi' : a.inbox with
        | nil => rw [hin, hi'] at h2; cases h2
        | cons y q' =>
          rw [hin, hi'] at h2
          cases h2
          by_cases hs : x = y
          · subst hs
            refine .inr ⟨_, succs_run hp htok rfl (by simp [runT, hi']; rfl), ?_⟩
            exact quiet _ _ rfl rfl rfl rfl rfl rfl hr hst hlk hhd hco rfl hes hsc hct hif hcr
          · exact .inl (succs_run hp htok rfl (by simp [runT, hi', hs]))
      | readPart h1 h2 h3 =>
        exfalso
        cases hi' : a.inbox with
        | nil => rw [hin, hi'] at h2; cases h2
        | cons y q' =>
          rw [hin, hi'] at h2
          cases h2
          exact absurd (hf.len y) (by omega)
    | idle =>
      obtain ⟨k', hk⟩ := hr; cases hk
      have : sh.inbox ≠ [] := by
        cases hx with
        | readFail => cases hcalm
        | read h1 h2 h3 => rw [h2]; nofun
        | readPart h1 h2 h3 => rw [h2]; nofun
      cases hi' : a.inbox with
      | nil => rw [hin, hi'] at this; exact absurd rfl this
      | cons y q => exact .inl (succs_run hp htok rfl (by simp [runT, hi']))
    | spawn n =>
      obtain ⟨k', hk, hr⟩ := hr; cases hk; cases hx
      by_cases hs : a.pcs.length = n
      · by_cases hn : 3 ≤ n ∧ n ≤ 5
        · refine .inr ⟨_, succs_run hp htok rfl (by simp [runT, hs]; rfl), ?_⟩
          refine ⟨hst, hlk, hhd, hco, hin, hes, hsc, hct, hif, hcr, by simpa [spawned] using h.len, ?_, ?_, ?_⟩
          · intro j t q h1 h2
            simp only [spawned, List.map_cons, List.map_nil] at h1
            have hlen : ts.length = n := by rw [← hs]; exact h.len
            by_cases hj : j < n
            · rw [List.getElem?_append_left (by simpa [hlen] using hj)] at h1
              rw [List.getElem?_append_left (by simpa [hs] using hj)] at h2
              exact th_set h _ (hl ▸ hr) j t q h1 h2
            · have hj' : j = n := by
                have := (List.getElem?_eq_some_iff.mp h1).1
                simp [hlen] at this; omega
              subst hj'
              rw [List.getElem?_append_right (by simp [hlen])] at h1
              rw [List.getElem?_append_right (by simp [hs])] at h2
              simp [hlen] at h1
              simp [hs] at h2
              subst h1 h2
              exact hf.code j hn.1 hn.2
          · rw [posted_concat sh _ ts]; simpa [sent?] using h.posted
          · rw [openings_concat sh _ ts]; simpa [opened?] using h.opened
        · exfalso
          apply hn
          have h1 : Tok.spawn n ∈ script E.mode i := by
            have := List.mem_cons_self (a := Tok.spawn n) (l := l)
            rw [← hd] at this
            exact List.mem_of_mem_drop this
          revert h1
          generalize E.mode = m
          have hlt : ∀ (m : Mode) i, Tok.spawn n ∈ script m i → n = 3 ∨ n = 4 ∨ n = 5 := by
            intro m i
            match m, i with
            | .client, 0 | .client, 1 | .client, 2 | .client, 3 | .client, 4 | .client, 5
            | .server, 0 | .server, 1 | .server, 2 | .server, 3 | .server, 4 | .server, 5 => simp [script] <;> omega
            | .client, i + 6 | .server, i + 6 => simp [script]
          intro h1
          have := hlt m i h1
          omega
      · exact .inl (succs_run hp htok rfl (by simp [runT, hs]))
    | sendSt s => obtain ⟨k', hk, hr⟩ := hr; cases hk; cases hx
    | recvSt s =>
      obtain ⟨k', hk, hr⟩ := hr; cases hk; cases hx with
      | monCtx h1 => rw [hct] at h1; cases h1
    | ctx =>
      obtain ⟨k', hk, hr⟩ := hr; cases hk; cases hx
      refine .inr ⟨_, succs_run hp htok rfl (by simp [runT]; rfl), ?_⟩
      refine quiet _ _ rfl rfl rfl rfl rfl rfl ?_ hst hlk hhd hco hin hes hsc hct hif hcr
      rw [hct]; exact hr
    | state s =>
      obtain ⟨k', hk, hr⟩ := hr; cases hk; cases hx with
      | state hf' =>
        have hf2 : a.locked = false := hlk ▸ hf'
        by_cases hs : a.st = s
        · refine .inr ⟨_, succs_run hp htok rfl (by simp [runT, hf2, hs]; rfl), ?_⟩
          refine quiet _ _ rfl rfl rfl rfl rfl rfl ?_ (hst.trans hs) (hlk.trans hf2) hhd hco hin hes hsc hct hif hcr
          show Runs E B l (k' sh.st)
          rw [hst, hs]; exact hr
        · exact .inl (succs_run hp htok rfl (by simp [runT, hf2, hs]))
    | sendEst => obtain ⟨k', hk, hr⟩ := hr; cases hk; cases hx
    | recvEst =>
      obtain ⟨k', hk, hr⟩ := hr; cases hk; cases hx with
      | estClosedRecv h1 => rw [hes] at h1; cases h1
      | estTimeout => cases hcalm
    | broadcast =>
      obtain ⟨k', hk, hr⟩ := hr; cases hk; cases hx
      refine .inr ⟨_, succs_run hp htok rfl (by simp [runT]; rfl), ?_⟩
      refine quiet _ _ rfl rfl rfl rfl rfl rfl hr hst hlk hhd ?_ hin hes hsc hct hif hcr
      show (match sh.cond with | .waiting => _ | c => c) = (match a.cond with | .waiting => _ | c => c)
      rw [hco]
    | opened =>
      obtain ⟨k', hk, hr⟩ := hr; cases hk; cases hx
      refine .inr ⟨_, succs_run hp htok rfl (by simp [runT]; rfl), ?_⟩
      refine ⟨hst, hlk, hhd, hco, hin, hes, hsc, hct, hif, hcr, by simpa [spawned] using h.len, ?_, ?_, ?_⟩
      · simp only [spawned, List.map_nil, List.append_nil]
        refine th_set h _ ?_
        rw [hl]; exact hr
      · rw [posted_concat sh _ ts]; simpa [sent?] using h.posted
      · rw [openings_concat sh _ ts, h.opened]
        simp [opened?, List.replicate_succ']
    | waitEnter =>
      obtain ⟨k', hk, hr⟩ := hr; cases hk; cases hx
      refine .inr ⟨_, succs_run hp htok rfl (by simp [runT]; rfl), ?_⟩
      exact quiet _ _ rfl rfl rfl rfl rfl rfl hr hst hlk hhd rfl hin hes hsc hct hif hcr
    | waitLeave =>
      obtain ⟨k', hk, hr⟩ := hr; cases hk; cases hx with
      | waitLeave h1 =>
        have h2 : a.cond = .woken := hco ▸ h1
        refine .inr ⟨_, succs_run hp htok rfl (by simp [runT, h2]; rfl), ?_⟩
        exact quiet _ _ rfl rfl rfl rfl rfl rfl hr hst hlk hhd rfl hin hes hsc hct hif hcr
    | loop => obtain ⟨g', hk, hr⟩ := hr; cases hk

/-- Only foreseen steps are missing: if the abstraction can move, so can the endpoint. -/
theorem At.moves {a : A} {w : World} (hf : Fits E B) (h : At E B a w) {x : Option A} (hx : x ∈ succs E.mode a) :
    ∃ w', Work E w w' := by
  obtain ⟨i, pc, t, hp, ht, hx⟩ := mem_succs.mp hx
  obtain ⟨sh, ts, tr⟩ := w
  have hcr := h.crashed
  have th_of : ∀ {i pc : Nat} {t : Tok}, a.pcs[i]? = some pc → tok? E.mode i pc = some t → ∃ g hi p,
      ts[i]? = some ⟨g, hi, p⟩ ∧ Runs E B (t :: (script E.mode i).drop (pc + 1)) p := by
    intro i pc t hp ht
    have hlt : i < ts.length := by
      have := h.len
      rw [this]; exact (List.getElem?_eq_some_iff.mp hp).1
    refine ⟨_, _, _, List.getElem?_eq_getElem hlt, ?_⟩
    rw [← tok_drop ht]
    exact h.th i _ pc (List.getElem?_eq_getElem hlt) hp
  obtain ⟨g, hi, p, hti, hr⟩ := th_of hp ht
  have hst := h.st; have hlk := h.locked; have hco := h.cond; have hin := h.inbox
  have hes := h.est; have hsc := h.sctp
  have sync : ∀ (tj : Tok), tj ≠ t → t.sends = true → ∀ {j pj : Nat}, a.pcs[j]? = some pj → tok? E.mode j pj = some tj →
      i ≠ j := by
    rintro tj hne - j pj h1 h2 rfl
    rw [hp] at h1
    cases h1
    rw [ht] at h2
    cases h2
    exact hne rfl
  cases t with
  | lock =>
    obtain ⟨k, rfl, -⟩ := hr
    refine ⟨_, .run i g hi _ k _ hcr hti (.lock ?_) rfl⟩
    cases hl : a.locked
    · exact hlk.trans hl
    · simp [Tok.sends, runT, hl] at hx
  | unlock => obtain ⟨k, rfl, -⟩ := hr; exact ⟨_, .run i g hi _ k _ hcr hti .unlock rfl⟩
  | getSt s => obtain ⟨k, rfl, -⟩ := hr; exact ⟨_, .run i g hi _ k _ hcr hti .getSt rfl⟩
  | putSt s => obtain ⟨k, rfl, -⟩ := hr; exact ⟨_, .run i g hi _ k _ hcr hti .putSt rfl⟩
  | info => obtain ⟨k, rfl, -⟩ := hr; exact ⟨_, .run i g hi _ k _ hcr hti .info rfl⟩
  | write x => obtain ⟨k, rfl, -⟩ := hr; exact ⟨_, .run i g hi _ k (some 0) hcr hti (.write hsc) rfl⟩
  | read y =>
    obtain ⟨k, rfl, -⟩ := hr
    cases hi' : a.inbox with
    | nil => simp [Tok.sends, runT, hi'] at hx
    | cons z q => 
      rw [hi'] at hin
      exact ⟨_, .run i g hi _ k (some (B z)) hcr hti (.read hsc hin (hf.len z)) rfl⟩
  | idle =>
    obtain ⟨k, rfl⟩ := hr
    cases hi' : a.inbox with
    | nil => simp [Tok.sends, runT, hi'] at hx
    | cons z q => 
      rw [hi'] at hin
      exact ⟨_, .run i g hi _ k (some (B z)) hcr hti (.read hsc hin (hf.len z)) rfl⟩
  | spawn n => obtain ⟨k, rfl, -⟩ := hr; exact ⟨_, .run i g hi _ k _ hcr hti .spawn rfl⟩
  | ctx => obtain ⟨k, rfl, -⟩ := hr; exact ⟨_, .run i g hi _ k _ hcr hti .ctxDone rfl⟩
  | state s =>
    obtain ⟨k, rfl, -⟩ := hr
    refine ⟨_, .run i g hi _ k _ hcr hti (.state ?_) rfl⟩
    cases hl : a.locked
    · exact hlk.trans hl
    · simp [Tok.sends, runT, hl] at hx
  | broadcast => obtain ⟨k, rfl, -⟩ := hr; exact ⟨_, .run i g hi _ k _ hcr hti .broadcast rfl⟩
  | opened => obtain ⟨k, rfl, -⟩ := hr; exact ⟨_, .run i g hi _ k _ hcr hti .opened rfl⟩
  | waitEnter => obtain ⟨k, rfl, -⟩ := hr; exact ⟨_, .run i g hi _ k _ hcr hti .waitEnter rfl⟩
  | waitLeave =>
    obtain ⟨k, rfl, -⟩ := hr
    refine ⟨_, .run i g hi _ k _ hcr hti (.waitLeave ?_) rfl⟩
    refine hco.trans ?_
    simp only [Tok.sends, runT] at hx
    cases hl : a.cond <;> simp [hl] at hx ⊢
  | loop => obtain ⟨g', rfl, -⟩ := hr; exact ⟨_, .loop i g g' hi hcr hti⟩
  | recvSt s => simp [Tok.sends, runT] at hx
  | recvEst => simp [Tok.sends, runT] at hx
  | sendSt s =>
    simp only [Tok.sends, if_true] at hx
    obtain ⟨j, pj, tj, h1, h2, h3⟩ := (mem_syncs _ _).mp hx
    rw [Nat.zero_add] at h2 h3
    cases tj <;> simp [syncT] at h3
    rename_i s'
    have hij := sync (.recvSt s') (by nofun) rfl h1 h2
    obtain ⟨k, rfl, -⟩ := hr
    obtain ⟨g', hi', p', htj, hr'⟩ := th_of h1 h2
    obtain ⟨k', rfl, -⟩ := hr'
    exact ⟨_, .sync i j g g' hi hi' _ _ k k' _ _ hcr hij hti htj .state⟩
  | sendEst =>
    simp only [Tok.sends, if_true] at hx
    obtain ⟨j, pj, tj, h1, h2, h3⟩ := (mem_syncs _ _).mp hx
    rw [Nat.zero_add] at h2 h3
    cases tj <;> simp [syncT] at h3
    have hij := sync .recvEst (by nofun) rfl h1 h2
    obtain ⟨k, rfl, -⟩ := hr
    obtain ⟨g', hi', p', htj, hr'⟩ := th_of h1 h2
    obtain ⟨k', rfl, -⟩ := hr'
    exact ⟨_, .sync i j g g' hi hi' _ _ k k' _ _ hcr hij hti htj (.est hes)⟩

/-! ### Both endpoints -/

theorem out_eq (w : World) : w.out = w.posted.map (·.1) := by simp [World.out, World.posted]

theorem At.out {a : A} {w : World} (h : At E B a w) : w.out = ((outSigs E.mode).take a.sent).map B := by
  rw [out_eq, h.posted, List.map_map]; rfl

theorem At.deliver {a : A} {w : World} (h : At E B a w) (x : Sig) :
    At E B { a with inbox := a.inbox ++ [x] } (w.deliver (B x)) :=
  { h with inbox := by simp [World.deliver, h.inbox] }

/-- The abstract state describes both endpoints. -/
structure Both (Ec Es : Env) (B : Sig → Bytes) (p : P) (q : Pair) : Prop where
  client : At Ec B p.c q.client
  server : At Es B p.s q.server
  toServer : q.toServer = p.toS.map B
  toClient : q.toClient = p.toC.map B

/-- What is needed of two endpoints. -/
structure Match (Ec Es : Env) (B : Sig → Bytes) : Prop where
  cmode : Ec.mode = .client
  smode : Es.mode = .server
  client : Fits Ec B
  server : Fits Es B

variable {Ec Es : Env}

theorem drop_min {α : Type} (L : List α) (n k l : Nat) (h : L.length = l) :
    (L.take k).drop (min n l) = (L.take k).drop n := by
  subst h
  rcases Nat.le_total n L.length with h | h
  · rw [Nat.min_eq_left h]
  · rw [Nat.min_eq_right h, List.drop_eq_nil_of_le, List.drop_eq_nil_of_le] <;>
      (rw [List.length_take]; omega)

theorem Both.step {p : P} {q q' : Pair} (hm : Match Ec Es B) (h : Both Ec Es B p q) (hs : Pair.Step Ec Es q q') :
    none ∈ psuccs p ∨ ∃ p', some p' ∈ psuccs p ∧ Both Ec Es B p' q' := by
  cases hs with
  | client hw =>
    rename_i c'
    rcases h.client.work hm.client hw with h1 | ⟨a', h1, h2⟩ <;> rw [hm.cmode] at h1
    · exact .inl (by simp only [psuccs, List.mem_append, List.mem_map]; exact .inl (.inl (.inl ⟨_, h1, rfl⟩)))
    · refine .inr ⟨_, by simp only [psuccs, List.mem_append, List.mem_map]; exact .inl (.inl (.inl ⟨_, h1, rfl⟩)), ?_⟩
      refine { h with client := h2, toServer := ?_ }
      rw [h2.out, h.client.out, h.toServer, hm.cmode]
      simp only [List.map_append, List.map_drop, List.map_take, List.length_map, List.length_take]
      rw [drop_min (List.map B _) _ _ _ (List.length_map _)]
  | server hw =>
    rename_i s'
    rcases h.server.work hm.server hw with h1 | ⟨a', h1, h2⟩ <;> rw [hm.smode] at h1
    · exact .inl (by simp only [psuccs, List.mem_append, List.mem_map]; exact .inl (.inl (.inr ⟨_, h1, rfl⟩)))
    · refine .inr ⟨_, by simp only [psuccs, List.mem_append, List.mem_map]; exact .inl (.inl (.inr ⟨_, h1, rfl⟩)), ?_⟩
      refine { h with server := h2, toClient := ?_ }
      rw [h2.out, h.server.out, h.toClient, hm.smode]
      simp only [List.map_append, List.map_drop, List.map_take, List.length_map, List.length_take]
      rw [drop_min (List.map B _) _ _ _ (List.length_map _)]
  | toServer hc hd =>
    rename_i d l
    rw [h.toServer] at hd
    cases ht : p.toS with
    | nil => rw [ht] at hd; cases hd
    | cons x l' =>
      rw [ht] at hd; cases hd
      refine .inr ⟨_, by simp only [psuccs, List.mem_append, ht]; exact .inl (.inr (.head _)), ?_⟩
      exact { h with server := h.server.deliver x, toServer := rfl }
  | toClient hc hd =>
    rename_i d l
    rw [h.toClient] at hd
    cases ht : p.toC with
    | nil => rw [ht] at hd; cases hd
    | cons x l' =>
      rw [ht] at hd; cases hd
      refine .inr ⟨_, by simp only [psuccs, List.mem_append, ht]; exact .inr (.head _), ?_⟩
      exact { h with client := h.client.deliver x, toClient := rfl }

theorem Both.init (hm : Match Ec Es B) : Both Ec Es B .init (.init Ec Es) where
  client := at_init hm.client
  server := at_init hm.server
  toServer := rfl
  toClient := rfl

/-- If nothing more can happen, nothing more was foreseen. -/
theorem Both.stop {p : P} {q : Pair} (hm : Match Ec Es B) (h : Both Ec Es B p q) (hs : ∀ q', ¬ Pair.Step Ec Es q q') :
    psuccs p = [] := by
  rw [List.eq_nil_iff_forall_not_mem]
  intro x hx
  simp only [psuccs, List.mem_append, List.mem_map] at hx
  rcases hx with ((⟨o, ho, -⟩ | ⟨o, ho, -⟩) | hx) | hx
  · rw [← hm.cmode] at ho
    obtain ⟨w', hw⟩ := h.client.moves hm.client ho
    exact hs _ (.client hw)
  · rw [← hm.smode] at ho
    obtain ⟨w', hw⟩ := h.server.moves hm.server ho
    exact hs _ (.server hw)
  · cases ht : p.toS with
    | nil => rw [ht] at hx; cases hx
    | cons y l =>
      have := h.toServer
      rw [ht] at this
      exact hs _ (.toServer h.server.crashed this)
  · cases ht : p.toC with
    | nil => rw [ht] at hx; cases hx
    | cons y l =>
      have := h.toClient
      rw [ht] at this
      exact hs _ (.toClient h.client.crashed this)

/-- All executions of two endpoints are covered. -/
theorem Both.steps {n : Nat} {q : Pair} (hm : Match Ec Es B) (hs : Pair.Steps Ec Es n (.init Ec Es) q) :
    ∃ p, Run n .init p ∧ Both Ec Es B p q := by
  generalize h0 : Pair.init Ec Es = q0 at hs
  induction hs with
  | refl q => subst h0; exact ⟨_, .refl _, .init hm⟩
  | tail _ hq ih =>
    obtain ⟨p, hr, hb⟩ := ih h0
    have hg := (run_good hr).2
    simp only [P.good, Bool.and_eq_true, List.all_eq_true] at hg
    rcases hb.step hm hq with h | ⟨p', h, hb'⟩
    · exact absurd (hg.1.1.1 _ h) (by simp)
    · exact ⟨p', hr.tail h, hb'⟩

end Shake

end M3.Conn
