import Verif.Model.IO
import Verif.Lemmas.Basic
import Mathlib.Data.List.Nodup
import Mathlib.Data.List.Perm.Basic

/-! Proof machinery for the aggregation of results: closed forms. No statements about the program live here. -/

set_option autoImplicit false
set_option linter.unusedSectionVars false

namespace Cosipy
section
variable {α : Type}

/-- A monadic fold gives the same result on permuted lists if neighbours may be exchanged. -/
theorem foldlM_perm {σ ρ : Type} {f : σ → ρ → M σ} {R : ρ → ρ → Prop} (hsymm : ∀ a b, R a b → R b a)
    (hcomm : ∀ s a b s1 s2, R a b → f s a = .ok s1 → f s1 b = .ok s2 → ∃ s1', f s b = .ok s1' ∧ f s1' a = .ok s2)
    {l l' : List ρ} (hp : l.Perm l') : ∀ {s s' : σ}, l.Pairwise R → l.foldlM f s = .ok s' → l'.foldlM f s = .ok s' := by
  induction hp with
  | nil => intro s s' _ h; exact h
  | cons a _ ih =>
    intro s s' hR h
    rw [List.foldlM_cons, bind_eq_ok] at h ⊢
    obtain ⟨s1, h1, h2⟩ := h
    exact ⟨s1, h1, ih (List.pairwise_cons.1 hR).2 h2⟩
  | swap a b l =>
    intro s s' hR h
    rw [List.foldlM_cons, bind_eq_ok] at h
    obtain ⟨s1, h1, h2⟩ := h
    rw [List.foldlM_cons, bind_eq_ok] at h2
    obtain ⟨s2, h2, h3⟩ := h2
    obtain ⟨t, e1, e2⟩ := hcomm s b a s1 s2 ((List.pairwise_cons.1 hR).1 a (List.mem_cons_self ..)) h1 h2
    rw [List.foldlM_cons, e1, ok_bind, List.foldlM_cons, e2, ok_bind]
    exact h3
  | trans p1 _ ih1 ih2 =>
    intro s s' hR h
    exact ih2 (hR.perm p1 (fun {a b} => hsymm a b)) (ih1 hR h)

theorem Store.get_eq_ok {β : Type} {s : Store β} {n : String} {b : β} : s.get n = .ok b ↔ s n = some b := by
  unfold Store.get
  cases s n <;> simp

/-- One assignment to a slice of a named array. -/
def assignOne (y x : Nat) (s : Store (Arr α)) (p : String × Val α) : M (Store (Arr α)) := do
  let a ← s.get p.1
  let a' ← a.assign y x p.2
  return s.set p.1 a'

/-- The assignment is possible. -/
def Fits (s : Store (Arr α)) (y x : Nat) (p : String × Val α) : Prop :=
  ∃ a, s p.1 = some a ∧ y < a.ny ∧ x < a.nx ∧ a.time = p.2.time ∧ a.layer = p.2.layer

/-- All assignments at once. -/
def putAll (y x : Nat) (as : List (String × Val α)) (s : Store (Arr α)) : Store (Arr α) :=
  fun k => (s k).map fun a => match as.lookup k with
    | some v => a.put y x v
    | none => a

theorem Arr.assign_eq_ok {a a' : Arr α} {y x : Nat} {v : Val α} : a.assign y x v = .ok a' ↔
    y < a.ny ∧ x < a.nx ∧ a.time = v.time ∧ a.layer = v.layer ∧ a' = a.put y x v := by
  unfold Arr.assign
  split_ifs with h1 h2
  · constructor
    · intro h; cases h
    · rintro ⟨h2, h3, _⟩; omega
  · rw [ok_inj]
    constructor
    · rintro rfl; exact ⟨by omega, by omega, h2.1, h2.2, rfl⟩
    · rintro ⟨_, _, _, _, rfl⟩; rfl
  · constructor
    · intro h; cases h
    · rintro ⟨_, _, h3, h4, _⟩; exact absurd ⟨h3, h4⟩ h2

theorem assignOne_eq_ok {y x : Nat} {s s' : Store (Arr α)} {p : String × Val α} :
    assignOne y x s p = .ok s' ↔ Fits s y x p ∧ s' = putAll y x [p] s := by
  have e : ∀ a, s p.1 = some a → s.set p.1 (a.put y x p.2) = putAll y x [p] s := by
    intro a ha
    funext k
    unfold Store.set putAll
    by_cases hk : k = p.1
    · subst hk; simp [ha, List.lookup]
    · have : (k == p.1) = false := by simpa using hk
      rw [if_neg hk]
      simp only [List.lookup, this]
      cases s k <;> rfl
  unfold assignOne
  simp only [bind_eq_ok, Store.get_eq_ok, Arr.assign_eq_ok, pure_eq_ok]
  constructor
  · rintro ⟨a, ha, a', ⟨h1, h2, h3, h4, rfl⟩, rfl⟩
    exact ⟨⟨a, ha, h1, h2, h3, h4⟩, e a ha⟩
  · rintro ⟨⟨a, ha, h1, h2, h3, h4⟩, rfl⟩
    exact ⟨a, ha, _, ⟨h1, h2, h3, h4, rfl⟩, e a ha⟩

/-- What assignments leave as it is. -/
def SameShape (s s' : Store (Arr α)) : Prop :=
  ∀ k, (s k).map (fun a => (a.time, a.ny, a.nx, a.layer)) = (s' k).map fun a => (a.time, a.ny, a.nx, a.layer)

theorem SameShape.symm {s s' : Store (Arr α)} (h : SameShape s s') : SameShape s' s := fun k => (h k).symm

theorem SameShape.trans {s s' s'' : Store (Arr α)} (h : SameShape s s') (h' : SameShape s' s'') : SameShape s s'' :=
  fun k => (h k).trans (h' k)

theorem putAll_shape (y x : Nat) (as : List (String × Val α)) (s : Store (Arr α)) : SameShape s (putAll y x as s) := by
  intro k
  unfold putAll
  cases s k with
  | none => rfl
  | some a =>
    simp only [Option.map_some]
    cases as.lookup k <;> rfl

theorem SameShape.some {s s' : Store (Arr α)} (h : SameShape s s') {k : String} {a : Arr α} (ha : s k = some a) :
    ∃ a', s' k = Option.some a' ∧ a'.time = a.time ∧ a'.ny = a.ny ∧ a'.nx = a.nx ∧ a'.layer = a.layer := by
  have := h k
  rw [ha] at this
  cases e : s' k with
  | none => rw [e] at this; cases this
  | some a' =>
    rw [e] at this
    simp only [Option.map_some, Option.some.injEq, Prod.mk.injEq] at this
    exact ⟨a', rfl, this.1.symm, this.2.1.symm, this.2.2.1.symm, this.2.2.2.symm⟩

theorem Fits.shape {s s' : Store (Arr α)} (h : SameShape s s') {y x : Nat} {p : String × Val α} (hf : Fits s y x p) :
    Fits s' y x p := by
  obtain ⟨a, ha, h1, h2, h3, h4⟩ := hf
  obtain ⟨a', ha', e1, e2, e3, e4⟩ := h.some ha
  exact ⟨a', ha', by omega, by omega, e1.trans h3, e4.trans h4⟩

theorem lookup_none_of_not_mem {β : Type} {k : String} : ∀ {as : List (String × β)}, k ∉ as.map Prod.fst → as.lookup k = none
  | [], _ => rfl
  | p :: as, h => by
    simp only [List.map_cons, List.mem_cons, not_or] at h
    have : (k == p.1) = false := by simpa using h.1
    obtain ⟨p1, p2⟩ := p
    simp only at this
    rw [List.lookup, this]
    exact lookup_none_of_not_mem h.2

theorem assignAll_eq_ok {y x : Nat} : ∀ {as : List (String × Val α)} {s s' : Store (Arr α)}, (as.map Prod.fst).Nodup →
    (as.foldlM (assignOne y x) s = .ok s' ↔ (∀ p ∈ as, Fits s y x p) ∧ s' = putAll y x as s) := by
  intro as
  induction as with
  | nil =>
    intro s s' _
    have e : putAll y x [] s = s := by
      funext k; unfold putAll; cases s k <;> rfl
    rw [List.foldlM_nil, pure_eq_ok, e]
    constructor
    · rintro rfl; exact ⟨fun p hp => (List.not_mem_nil hp).elim, rfl⟩
    · rintro ⟨_, rfl⟩; rfl
  | cons p as ih =>
    intro s s' hn
    rw [List.map_cons, List.nodup_cons] at hn
    have e : putAll y x as (putAll y x [p] s) = putAll y x (p :: as) s := by
      funext k
      obtain ⟨p1, p2⟩ := p
      unfold putAll
      cases s k with
      | none => rfl
      | some a =>
        simp only [Option.map_some, List.lookup]
        by_cases hk : k = p1
        · subst hk
          rw [lookup_none_of_not_mem hn.1]
        · have : (k == p1) = false := by simpa using hk
          rw [this]
    rw [List.foldlM_cons]
    simp only [bind_eq_ok, assignOne_eq_ok]
    constructor
    · rintro ⟨s1, ⟨h1, rfl⟩, h2⟩
      rw [ih hn.2] at h2
      obtain ⟨h2, rfl⟩ := h2
      refine ⟨?_, e⟩
      intro q hq
      rcases List.mem_cons.1 hq with rfl | hq
      · exact h1
      · exact (h2 q hq).shape (putAll_shape _ _ _ _).symm
    · rintro ⟨h1, rfl⟩
      refine ⟨_, ⟨h1 p (List.mem_cons_self ..), rfl⟩, ?_⟩
      rw [ih hn.2]
      exact ⟨fun q hq => (h1 q (List.mem_cons_of_mem _ hq)).shape (putAll_shape _ _ _ _), e.symm⟩

theorem putAll_comm {y x y' x' : Nat} (h : ¬ (y = y' ∧ x = x')) (as as' : List (String × Val α)) (s : Store (Arr α)) :
    putAll y x as (putAll y' x' as' s) = putAll y' x' as' (putAll y x as s) := by
  funext k
  unfold putAll
  cases s k with
  | none => rfl
  | some a =>
    simp only [Option.map_some]
    cases as.lookup k with
    | none => rfl
    | some v =>
      cases as'.lookup k with
      | none => rfl
      | some v' =>
        simp only [Arr.put]
        congr 2
        funext t u w m
        by_cases h1 : u = y ∧ w = x
        · rw [if_pos h1]
          have : ¬ (u = y' ∧ w = x') := fun h2 => h ⟨h1.1.symm.trans h2.1, h1.2.symm.trans h2.2⟩
          rw [if_neg this, if_pos h1]
        · rw [if_neg h1]
          split_ifs <;> rfl

/-! ## Parsing a worker's result -/

/-- The assignments the storing routine makes, or none if a value has the wrong kind. -/
def parseCalls (io : IOState α) (args : List (PyVal α)) : List (OutKind × String × String) → Option (List (String × Val α))
  | [] => some []
  | c :: cs =>
    if io.wants c.1 c.2.1 then
      match lookupLast copyParams args c.2.2 with
      | .ok (.arr v) => (parseCalls io args cs).map ((attrName c.1 c.2.1, v) :: ·)
      | _ => none
    else parseCalls io args cs

/-- One call of the storing routine. -/
def copyCall (args : List (PyVal α)) (y x : Nat) (io : IOState α) (c : OutKind × String × String) : M (IOState α) := do
  if c.1 = .full ∧ io.fullField = false then return io
  else
    let v ← lookupLast copyParams args c.2.2
    io.setAttribute c.1 c.2.1 v x y

theorem copyCall_eq_ok {args : List (PyVal α)} {y x : Nat} {io io' : IOState α} {c : OutKind × String × String}
    (hl : ∃ v, lookupLast copyParams args c.2.2 = .ok v) : copyCall args y x io c = .ok io' ↔
    ∃ as s', parseCalls io args [c] = some as ∧ as.foldlM (assignOne y x) io.attrs = .ok s' ∧
      io' = { io with attrs := s' } := by
  obtain ⟨v, hl⟩ := hl
  unfold copyCall
  by_cases hw : io.wants c.1 c.2.1 = true
  · have hf : ¬ (c.1 = .full ∧ io.fullField = false) := by
      rintro ⟨h1, h2⟩; rw [h1] at hw; simp [IOState.wants, h2] at hw
    rw [if_neg hf, hl, ok_bind]
    unfold IOState.setAttribute
    simp only [parseCalls, if_pos hw, hl]
    cases v with
    | arr v =>
      simp only [Option.map_some, Option.some.injEq, bind_eq_ok, pure_eq_ok]
      constructor
      · rintro ⟨a, ha, a', ha', rfl⟩
        refine ⟨_, io.attrs.set (attrName c.1 c.2.1) a', rfl, ?_, rfl⟩
        rw [List.foldlM_cons]
        unfold assignOne
        simp only [ha, ha', ok_bind]
        rfl
      · rintro ⟨_, s', rfl, h, rfl⟩
        rw [List.foldlM_cons] at h
        unfold assignOne at h
        simp only [bind_eq_ok, pure_eq_ok] at h
        obtain ⟨s1, ⟨a, ha, a', ha', rfl⟩, h⟩ := h
        rw [List.foldlM_nil, pure_eq_ok] at h
        subst h
        exact ⟨a, ha, a', ha', rfl⟩
    | _ =>
      simp only [bind_eq_ok]
      constructor
      · rintro ⟨_, _, h⟩; cases h
      · rintro ⟨_, _, h, _⟩; cases h
  · have e : (if c.1 = .full ∧ io.fullField = false then (pure io : M (IOState α)) else do
        let v ← lookupLast copyParams args c.2.2
        io.setAttribute c.1 c.2.1 v x y) = .ok io := by
      split_ifs
      · rfl
      · rw [hl, ok_bind]; unfold IOState.setAttribute; rw [if_neg hw]
    rw [e, ok_inj]
    simp only [parseCalls, if_neg hw, Option.some.injEq]
    constructor
    · rintro rfl; exact ⟨[], io.attrs, rfl, rfl, rfl⟩
    · rintro ⟨_, s', rfl, h, rfl⟩
      rw [List.foldlM_nil, pure_eq_ok] at h
      subst h; rfl

theorem parseCalls_attrs (io : IOState α) (s : Store (Arr α)) (args : List (PyVal α)) :
    ∀ cs, parseCalls { io with attrs := s } args cs = parseCalls io args cs
  | [] => rfl
  | c :: cs => by
    unfold parseCalls
    rw [parseCalls_attrs io s args cs]
    have : ({ io with attrs := s } : IOState α).wants c.1 c.2.1 = io.wants c.1 c.2.1 := by cases c.1 <;> rfl
    rw [this]

theorem parseCalls_cons (io : IOState α) (args : List (PyVal α)) (c : OutKind × String × String) (cs) :
    parseCalls io args (c :: cs) = (parseCalls io args [c]).bind fun a => (parseCalls io args cs).map (a ++ ·) := by
  simp only [parseCalls]
  split_ifs
  · split
    · cases parseCalls io args cs <;> rfl
    · rfl
  · cases parseCalls io args cs <;> rfl

theorem copyCalls_eq_ok {args : List (PyVal α)} {y x : Nat} : ∀ {cs : List (OutKind × String × String)} {io io' : IOState α},
    (∀ c ∈ cs, ∃ v, lookupLast copyParams args c.2.2 = .ok v) → (cs.foldlM (copyCall args y x) io = .ok io' ↔
    ∃ as s', parseCalls io args cs = some as ∧ as.foldlM (assignOne y x) io.attrs = .ok s' ∧
      io' = { io with attrs := s' }) := by
  intro cs
  induction cs with
  | nil =>
    intro io io' _
    rw [List.foldlM_nil, pure_eq_ok]
    constructor
    · rintro rfl; exact ⟨[], io.attrs, rfl, rfl, rfl⟩
    · rintro ⟨as, s', h1, h2, rfl⟩
      cases h1
      rw [List.foldlM_nil, pure_eq_ok] at h2
      subst h2; rfl
  | cons c cs ih =>
    intro io io' hl
    rw [List.foldlM_cons, parseCalls_cons]
    simp only [bind_eq_ok, copyCall_eq_ok (hl c (List.mem_cons_self ..))]
    constructor
    · rintro ⟨io1, ⟨as, s', h1, h2, rfl⟩, h3⟩
      rw [ih fun d hd => hl d (List.mem_cons_of_mem _ hd)] at h3
      obtain ⟨as', s'', h4, h5, rfl⟩ := h3
      rw [parseCalls_attrs] at h4
      refine ⟨as ++ as', s'', ?_, ?_, rfl⟩
      · rw [h1, Option.bind_some, h4]; rfl
      · rw [List.foldlM_append, h2, ok_bind]; exact h5
    · rintro ⟨as, s', h1, h2, rfl⟩
      rw [Option.bind_eq_some_iff] at h1
      obtain ⟨a1, h1, h3⟩ := h1
      rw [Option.map_eq_some_iff] at h3
      obtain ⟨a2, h3, rfl⟩ := h3
      rw [List.foldlM_append, bind_eq_ok] at h2
      obtain ⟨s1, h4, h5⟩ := h2
      refine ⟨_, ⟨a1, s1, h1, h4, rfl⟩, ?_⟩
      rw [ih fun d hd => hl d (List.mem_cons_of_mem _ hd)]
      exact ⟨a2, s', (parseCalls_attrs ..).trans h3, h5, rfl⟩

theorem parseCalls_keys {io : IOState α} {args : List (PyVal α)} : ∀ {cs} {as}, parseCalls io args cs = some as →
    (as.map Prod.fst).Sublist (cs.map fun c => attrName c.1 c.2.1)
  | [], as, h => by cases h; exact List.Sublist.slnil
  | c :: cs, as, h => by
    unfold parseCalls at h
    split_ifs at h with hw
    · split at h
      · rw [Option.map_eq_some_iff] at h
        obtain ⟨as', h, rfl⟩ := h
        exact (parseCalls_keys h).cons_cons _
      · cases h
    · exact (parseCalls_keys h).cons _

/-! ## Restart data -/

/-- The names of the restart data in the worker's dataset. -/
def restartNames : List String := restartScalars ++ restartLayers.map ("LAYER_" ++ ·)

/-- The assignments for the restart arrays. -/
def parseRestart (d : Store (Val α)) : List String → Option (List (String × Val α))
  | [] => some []
  | n :: ns => (d n).bind fun v => (parseRestart d ns).map (("RES_" ++ n, v) :: ·)

/-- One assignment of restart data. -/
def putRestart (d : Store (Val α)) (y x : Nat) (s : Store (Arr α)) (n : String) : M (Store (Arr α)) := do
  let a ← s.get ("RES_" ++ n)
  let v ← d.get n
  let a' ← a.assign y x v
  return s.set ("RES_" ++ n) a'

theorem putRestarts_eq_ok {d : Store (Val α)} {y x : Nat} : ∀ {ns : List String} {s s' : Store (Arr α)},
    ns.foldlM (putRestart d y x) s = .ok s' ↔ ∃ as, parseRestart d ns = some as ∧ as.foldlM (assignOne y x) s = .ok s'
  | [], s, s' => by
    constructor
    · intro h; exact ⟨[], rfl, h⟩
    · rintro ⟨as, h1, h2⟩; cases h1; exact h2
  | n :: ns, s, s' => by
    rw [List.foldlM_cons, bind_eq_ok]
    simp only [putRestarts_eq_ok (ns := ns), parseRestart]
    constructor
    · rintro ⟨s1, h1, as, h2, h3⟩
      unfold putRestart at h1
      simp only [bind_eq_ok, pure_eq_ok] at h1
      obtain ⟨a, ha, v, hv, a', ha', rfl⟩ := h1
      refine ⟨("RES_" ++ n, v) :: as, ?_, ?_⟩
      · rw [Store.get_eq_ok.1 hv, Option.bind_some, h2]; rfl
      · rw [List.foldlM_cons]; unfold assignOne; simp only [ha, ha', ok_bind]; exact h3
    · rintro ⟨as, h1, h2⟩
      rw [Option.bind_eq_some_iff] at h1
      obtain ⟨v, hv, h1⟩ := h1
      rw [Option.map_eq_some_iff] at h1
      obtain ⟨as', h1, rfl⟩ := h1
      rw [List.foldlM_cons, bind_eq_ok] at h2
      obtain ⟨s1, h2, h3⟩ := h2
      refine ⟨s1, ?_, as', h1, h3⟩
      unfold assignOne at h2
      unfold putRestart
      simp only [bind_eq_ok] at h2 ⊢
      obtain ⟨a, ha, a', ha', h2⟩ := h2
      exact ⟨a, ha, v, Store.get_eq_ok.2 hv, a', ha', h2⟩

theorem copyRestart_eq (io : IOState α) (y x : Nat) (d : Store (Val α)) : io.copyRestartToGlobal y x d =
    (do let s ← restartNames.foldlM (putRestart d y x) io.attrs; return { io with attrs := s }) := by
  have e : ∀ s, (restartLayers.map ("LAYER_" ++ ·)).foldlM (putRestart d y x) s =
      restartLayers.foldlM (fun s n => putRestart d y x s ("LAYER_" ++ n)) s := by
    intro s; rw [List.foldlM_map]
  unfold IOState.copyRestartToGlobal restartNames
  simp only [List.foldlM_append, e, bind_assoc]
  rfl

theorem parseRestart_keys {d : Store (Val α)} : ∀ {ns as}, parseRestart d ns = some as →
    as.map Prod.fst = ns.map ("RES_" ++ ·)
  | [], as, h => by cases h; rfl
  | n :: ns, as, h => by
    unfold parseRestart at h
    rw [Option.bind_eq_some_iff] at h
    obtain ⟨v, hv, h⟩ := h
    rw [Option.map_eq_some_iff] at h
    obtain ⟨as', h, rfl⟩ := h
    rw [List.map_cons, List.map_cons, parseRestart_keys h]

/-! ## Writing the datasets -/

/-- A variable to be written: has it a time axis, a layer axis; attribute; name. -/
structure WriteItem where
  hasTime : Bool
  hasLayer : Bool
  attr : String
  name : String

/-- The variable can be written. -/
def Writable (metadata : List String) (attrs : Store (Arr α)) (w : WriteItem) : Prop :=
  ∃ a, attrs w.attr = some a ∧ w.name ∈ metadata ∧ a.time.isSome = w.hasTime ∧ a.layer.isSome = w.hasLayer

theorem Writable.shape {metadata : List String} {s s' : Store (Arr α)} (h : SameShape s s') {w : WriteItem}
    (hw : Writable metadata s w) : Writable metadata s' w := by
  obtain ⟨a, ha, h1, h2, h3⟩ := hw
  obtain ⟨a', ha', e1, e2, e3, e4⟩ := h.some ha
  exact ⟨a', ha', h1, by rw [e1]; exact h2, by rw [e4]; exact h3⟩

/-- The dataset after writing. -/
def overwrite (attrOf : String → String) (names : List String) (attrs ds : Store (Arr α)) : Store (Arr α) :=
  fun k => if k ∈ names then attrs (attrOf k) else ds k

theorem writeVariable_eq_ok {metadata : List String} {attrs ds ds' : Store (Arr α)} {ht hl : Bool} {at_ n : String} :
    writeVariable metadata attrs ht hl at_ n ds = .ok ds' ↔
    ∃ a, attrs at_ = some a ∧ n ∈ metadata ∧ a.time.isSome = ht ∧ a.layer.isSome = hl ∧ ds' = ds.set n a := by
  unfold writeVariable addVariable
  simp only [bind_eq_ok, Store.get_eq_ok]
  constructor
  · rintro ⟨a, ha, h⟩
    split_ifs at h with h1 h2
    rw [ok_inj] at h
    exact ⟨a, ha, by simpa using h1, h2.1, h2.2, h.symm⟩
  · rintro ⟨a, ha, h1, h2, h3, rfl⟩
    refine ⟨a, ha, ?_⟩
    rw [if_pos (by simpa using h1), if_pos ⟨h2, h3⟩]

theorem writeAll_eq_ok {metadata : List String} {attrs : Store (Arr α)} {attrOf : String → String} :
    ∀ {ws : List WriteItem} {ds ds' : Store (Arr α)}, (∀ w ∈ ws, w.attr = attrOf w.name) →
    (ws.foldlM (fun r w => writeVariable metadata attrs w.hasTime w.hasLayer w.attr w.name r) ds = .ok ds' ↔
    (∀ w ∈ ws, Writable metadata attrs w) ∧ ds' = overwrite attrOf (ws.map (·.name)) attrs ds) := by
  intro ws
  induction ws with
  | nil =>
    intro ds ds' _
    have : overwrite attrOf ([].map WriteItem.name) attrs ds = ds := by funext k; simp [overwrite]
    rw [List.foldlM_nil, pure_eq_ok, this]
    constructor
    · rintro rfl; exact ⟨fun w hw => (List.not_mem_nil hw).elim, rfl⟩
    · rintro ⟨_, rfl⟩; rfl
  | cons w ws ih =>
    intro ds ds' ha
    have e : ∀ a, attrs w.attr = some a → overwrite attrOf (ws.map (·.name)) attrs (ds.set w.name a) =
        overwrite attrOf ((w :: ws).map (·.name)) attrs ds := by
      intro a hat
      funext k
      unfold overwrite Store.set
      simp only [List.map_cons, List.mem_cons]
      by_cases h1 : k ∈ ws.map (·.name)
      · rw [if_pos h1, if_pos (Or.inr h1)]
      · rw [if_neg h1]
        by_cases h2 : k = w.name
        · rw [if_pos h2, if_pos (Or.inl h2), h2, ← ha w (List.mem_cons_self ..), hat]
        · rw [if_neg h2, if_neg (not_or.2 ⟨h2, h1⟩)]
    rw [List.foldlM_cons]
    simp only [bind_eq_ok, writeVariable_eq_ok]
    constructor
    · rintro ⟨ds1, ⟨a, hat, h1, h2, h3, rfl⟩, h⟩
      rw [ih fun v hv => ha v (List.mem_cons_of_mem _ hv)] at h
      obtain ⟨h, rfl⟩ := h
      refine ⟨?_, e a hat⟩
      intro v hv
      rcases List.mem_cons.1 hv with rfl | hv
      · exact ⟨a, hat, h1, h2, h3⟩
      · exact h v hv
    · rintro ⟨h, rfl⟩
      obtain ⟨a, hat, h1, h2, h3⟩ := h w (List.mem_cons_self ..)
      refine ⟨_, ⟨a, hat, h1, h2, h3, rfl⟩, ?_⟩
      rw [ih fun v hv => ha v (List.mem_cons_of_mem _ hv)]
      exact ⟨fun v hv => h v (List.mem_cons_of_mem _ hv), (e a hat).symm⟩

/-- What `write_results_to_file` writes. -/
def IOState.resultItems (io : IOState α) : List WriteItem :=
  (io.atm ++ io.internal).map (fun n => ⟨true, false, n, n⟩) ++
    if io.fullField then io.full.map (fun n => ⟨true, true, "LAYER_" ++ n, "LAYER_" ++ n⟩) else []

/-- What `write_restart_to_file` writes. -/
def restartItems : List WriteItem :=
  restartScalars.map (fun n => ⟨false, false, "RES_" ++ n, n⟩) ++
    restartLayers.map fun n => ⟨false, true, "RES_LAYER_" ++ n, "LAYER_" ++ n⟩

theorem writeResults_eq_ok {io io' : IOState α} : io.writeResults = .ok io' ↔
    (∀ w ∈ io.resultItems, Writable resultMetadata io.attrs w) ∧
    io' = { io with result := overwrite id (io.resultItems.map (·.name)) io.attrs io.result } := by
  have hid : ∀ w ∈ io.resultItems, w.attr = id w.name := by
    intro w hw
    unfold IOState.resultItems at hw
    rcases List.mem_append.1 hw with hw | hw
    · obtain ⟨n, _, rfl⟩ := List.mem_map.1 hw; rfl
    · split_ifs at hw
      · obtain ⟨n, _, rfl⟩ := List.mem_map.1 hw; rfl
      · cases hw
  have e : io.writeResults = (do
      let r ← io.resultItems.foldlM
        (fun r w => writeVariable resultMetadata io.attrs w.hasTime w.hasLayer w.attr w.name r) io.result
      return { io with result := r }) := by
    unfold IOState.writeResults IOState.resultItems
    simp only [List.foldlM_append, List.map_append, List.foldlM_map, bind_assoc]
    congr 1
    funext r
    congr 1
    funext r
    cases io.fullField
    · rfl
    · simp only [if_true, List.foldlM_map]
  rw [e]
  simp only [bind_eq_ok, pure_eq_ok, writeAll_eq_ok hid]
  constructor
  · rintro ⟨_, ⟨h, rfl⟩, rfl⟩; exact ⟨h, rfl⟩
  · rintro ⟨h, rfl⟩; exact ⟨_, ⟨h, rfl⟩, rfl⟩

theorem writeRestart_eq_ok {io io' : IOState α} : io.writeRestart = .ok io' ↔
    (∀ w ∈ restartItems, Writable restartMetadata io.attrs w) ∧
    io' = { io with restart := overwrite ("RES_" ++ ·) (restartItems.map (·.name)) io.attrs io.restart } := by
  have hid : ∀ w ∈ restartItems, w.attr = "RES_" ++ w.name := by decide
  have e : io.writeRestart = (do
      let r ← restartItems.foldlM
        (fun r w => writeVariable restartMetadata io.attrs w.hasTime w.hasLayer w.attr w.name r) io.restart
      return { io with restart := r }) := by
    unfold IOState.writeRestart restartItems
    simp only [List.foldlM_append, List.foldlM_map, bind_assoc]
  rw [e]
  simp only [bind_eq_ok, pure_eq_ok, writeAll_eq_ok (attrOf := ("RES_" ++ ·)) hid]
  constructor
  · rintro ⟨_, ⟨h, rfl⟩, rfl⟩; exact ⟨h, rfl⟩
  · rintro ⟨h, rfl⟩; exact ⟨_, ⟨h, rfl⟩, rfl⟩

/-! ## Positional wiring -/

theorem lookupLast_get {β : Type} {names : List String} {vals : List β} (hn : names.Nodup) {i : Nat} {n : String} {v : β}
    (h1 : names[i]? = some n) (h2 : vals[i]? = some v) : lookupLast names vals n = .ok v := by
  have hz : (n, v) ∈ names.zip vals := by
    have : (names.zip vals)[i]? = some (n, v) := by
      rw [List.getElem?_zip_eq_some]; exact ⟨h1, h2⟩
    exact List.mem_of_getElem? this
  unfold lookupLast
  cases e : (names.zip vals).reverse.find? (fun p => p.1 == n) with
  | none =>
    rw [List.find?_eq_none] at e
    exact absurd (beq_self_eq_true n) (e (n, v) (List.mem_reverse.2 hz))
  | some p =>
    have hp := List.mem_reverse.1 (List.mem_of_find?_eq_some e)
    have hpn : p.1 = n := by simpa using List.find?_some e
    obtain ⟨j, hj⟩ := List.mem_iff_getElem?.1 hp
    obtain ⟨h3, h4⟩ := List.getElem?_zip_eq_some.1 (show (names.zip vals)[j]? = some (p.1, p.2) from hj)
    rw [hpn] at h3
    have hij : i = j := by
      obtain ⟨hi, hi'⟩ := List.getElem?_eq_some_iff.1 h1
      obtain ⟨hj, hj'⟩ := List.getElem?_eq_some_iff.1 h3
      exact (hn.getElem_inj_iff).1 (hi'.trans hj'.symm)
    subst hij
    rw [h2] at h4
    cases h4
    rfl

theorem lookupLast_ok {β : Type} {names : List String} {vals : List β} (hn : names.Nodup)
    (hl : vals.length = names.length) {n : String} (h : n ∈ names) : ∃ v, lookupLast names vals n = .ok v := by
  obtain ⟨i, hi⟩ := List.mem_iff_getElem?.1 h
  have : i < vals.length := by rw [hl]; exact (List.getElem?_eq_some_iff.1 hi).1
  exact ⟨vals[i], lookupLast_get hn hi (List.getElem?_eq_getElem this)⟩

theorem mainUnpack_nodup : mainUnpack.Nodup := by decide
theorem copyParams_nodup : copyParams.Nodup := by decide

/-- The positional arguments of the storing routine. -/
theorem mainCall_args {res : List (PyVal α)} (hl : res.length = mainUnpack.length) :
    ∃ args, mainCall.mapM (lookupLast mainUnpack res) = .ok args ∧ args.length = copyParams.length ∧
      ∀ (i : Nat) (m n : String), mainCall[i]? = some m → copyParams[i]? = some n →
        lookupLast copyParams args n = lookupLast mainUnpack res m := by
  have key : ∀ (ms : List String), (∀ m ∈ ms, m ∈ mainUnpack) → ∃ args, ms.mapM (lookupLast mainUnpack res) = .ok args ∧
      args.length = ms.length ∧ ∀ (i : Nat) (m : String), ms[i]? = some m → ∃ v, args[i]? = some v ∧ lookupLast mainUnpack res m = .ok v := by
    intro ms
    induction ms with
    | nil => intro _; exact ⟨[], rfl, rfl, by simp⟩
    | cons m ms ih =>
      intro hm
      obtain ⟨args, h1, h2, h3⟩ := ih fun k hk => hm k (List.mem_cons_of_mem _ hk)
      obtain ⟨v, hv⟩ := lookupLast_ok mainUnpack_nodup hl (hm m (List.mem_cons_self ..))
      refine ⟨v :: args, ?_, ?_, ?_⟩
      · rw [List.mapM_cons, hv, ok_bind, h1, ok_bind]; rfl
      · rw [List.length_cons, List.length_cons, h2]
      · intro i k hk
        cases i with
        | zero => simp only [List.getElem?_cons_zero, Option.some.injEq] at hk ⊢; subst hk; exact ⟨v, rfl, hv⟩
        | succ i => simp only [List.getElem?_cons_succ] at hk ⊢; exact h3 i k hk
  obtain ⟨args, h1, h2, h3⟩ := key mainCall (by decide)
  refine ⟨args, h1, h2, ?_⟩
  intro i m n hm hn
  obtain ⟨v, h4, h5⟩ := h3 i m hm
  rw [h5]
  exact lookupLast_get copyParams_nodup hn h4

/-! ## One finished task -/

/-- The assignments for a worker's result: cell and named values. -/
def parseRes (io : IOState α) (res : List (PyVal α)) : Option (Nat × Nat × List (String × Val α)) :=
  match lookupLast mainUnpack res "indY", lookupLast mainUnpack res "indX", lookupLast mainUnpack res "local_restart",
    mainCall.mapM (lookupLast mainUnpack res) with
  | .ok (.int y), .ok (.int x), .ok (.dataset d), .ok args =>
    (parseCalls io args copyCalls).bind fun as1 => (parseRestart d restartNames).map fun as2 => (y, x, as1 ++ as2)
  | _, _, _, _ => none

/-- The state after a finished task. -/
def IOState.next (io : IOState α) (y x : Nat) (as : List (String × Val α)) : IOState α :=
  let s := putAll y x as io.attrs
  { io with
    attrs := s
    result := overwrite id (io.resultItems.map (·.name)) s io.result
    restart := overwrite ("RES_" ++ ·) (restartItems.map (·.name)) s io.restart }

/-- Everything configured can be written. -/
def IOState.CanWrite (io : IOState α) : Prop :=
  (∀ w ∈ io.resultItems, Writable resultMetadata io.attrs w) ∧ ∀ w ∈ restartItems, Writable restartMetadata io.attrs w

theorem keys_nodup : ((copyCalls.map fun c => attrName c.1 c.2.1) ++ restartNames.map ("RES_" ++ ·)).Nodup := by
  decide +kernel

theorem parse_keys_nodup {io : IOState α} {args : List (PyVal α)} {d : Store (Val α)} {as1 as2 : List (String × Val α)}
    (h1 : parseCalls io args copyCalls = some as1) (h2 : parseRestart d restartNames = some as2) :
    ((as1 ++ as2).map Prod.fst).Nodup := by
  rw [List.map_append, parseRestart_keys h2]
  exact keys_nodup.sublist ((parseCalls_keys h1).append (List.Sublist.refl _))

theorem collectIO_eq_ok {io io' : IOState α} {res : List (PyVal α)} : collectIO io res = .ok io' ↔
    res.length = mainUnpack.length ∧ ∃ y x as, parseRes io res = some (y, x, as) ∧ (∀ p ∈ as, Fits io.attrs y x p) ∧
      io.CanWrite ∧ io' = io.next y x as := by
  by_cases hl : res.length = mainUnpack.length
  swap
  · constructor
    · intro h
      unfold collectIO unpackTuple at h
      rw [if_neg hl] at h
      cases h
    · rintro ⟨h, _⟩; exact absurd h hl
  obtain ⟨args, ha, hal, hw⟩ := mainCall_args hl
  have ey : lookupLast copyParams args "y" = lookupLast mainUnpack res "indY" := hw 0 _ _ rfl rfl
  have ex : lookupLast copyParams args "x" = lookupLast mainUnpack res "indX" := hw 1 _ _ rfl rfl
  have hcl : ∀ c ∈ copyCalls, ∃ v, lookupLast copyParams args c.2.2 = .ok v := fun c hc =>
    lookupLast_ok copyParams_nodup hal ((by decide : ∀ c ∈ copyCalls, c.2.2 ∈ copyParams) c hc)
  obtain ⟨vy, hy⟩ := lookupLast_ok mainUnpack_nodup hl (n := "indY") (by decide)
  obtain ⟨vx, hx⟩ := lookupLast_ok mainUnpack_nodup hl (n := "indX") (by decide)
  obtain ⟨vd, hd⟩ := lookupLast_ok mainUnpack_nodup hl (n := "local_restart") (by decide)
  rw [hy] at ey
  rw [hx] at ex
  -- the storing routine
  have hcopy : ∀ io1, io.copyLocalToGlobal args = .ok io1 ↔ ∃ y x as s', vy = .int y ∧ vx = .int x ∧
      parseCalls io args copyCalls = some as ∧ as.foldlM (assignOne y x) io.attrs = .ok s' ∧
      io1 = { io with attrs := s' } := by
    intro io1
    unfold IOState.copyLocalToGlobal
    rw [if_neg (not_not.2 hal), ey, ok_bind, ex, ok_bind]
    cases vy with
    | int y =>
      cases vx with
      | int x =>
        have := copyCalls_eq_ok (args := args) (y := y) (x := x) (io := io) (io' := io1) hcl
        refine Iff.trans this ?_
        constructor
        · rintro ⟨as, s', h1, h2, h3⟩; exact ⟨y, x, as, s', rfl, rfl, h1, h2, h3⟩
        · rintro ⟨_, _, as, s', h1, h2, h3, h4, h5⟩; cases h1; cases h2; exact ⟨as, s', h3, h4, h5⟩
      | _ =>
        constructor
        · intro h; cases h
        · rintro ⟨_, _, _, _, _, h, _⟩; cases h
    | _ =>
      constructor
      · intro h; cases h
      · rintro ⟨_, _, _, _, h, _⟩; cases h
  have hu : unpackTuple mainUnpack res = .ok () := if_pos hl
  unfold collectIO
  rw [hu, ok_bind, ha, ok_bind]
  simp only [bind_eq_ok, hcopy, hy, hx, hd, ok_inj]
  unfold parseRes
  rw [hy, hx, hd, ha]
  constructor
  · rintro ⟨io1, ⟨y, x, as, s', rfl, rfl, h1, h2, rfl⟩, _, rfl, _, rfl, _, rfl, h⟩
    cases vd with
    | dataset d =>
      simp only [bind_eq_ok, copyRestart_eq, putRestarts_eq_ok, pure_eq_ok] at h
      obtain ⟨io2, ⟨s2, ⟨as2, h3, h4⟩, rfl⟩, io3, h5, h6⟩ := h
      have hs : (as ++ as2).foldlM (assignOne y x) io.attrs = .ok s2 := by
        rw [List.foldlM_append, h2, ok_bind]; exact h4
      rw [assignAll_eq_ok (parse_keys_nodup h1 h3)] at hs
      obtain ⟨hf, rfl⟩ := hs
      rw [writeResults_eq_ok] at h5
      obtain ⟨h5, rfl⟩ := h5
      rw [writeRestart_eq_ok] at h6
      obtain ⟨h6, rfl⟩ := h6
      refine ⟨hl, y, x, as ++ as2, ?_, hf, ⟨?_, ?_⟩, rfl⟩
      · simp only [h1, h3, Option.bind_some, Option.map_some]
      · exact fun w hw => (h5 w hw).shape (putAll_shape _ _ _ _).symm
      · exact fun w hw => (h6 w hw).shape (putAll_shape _ _ _ _).symm
    | _ => cases h
  · rintro ⟨_, y, x, as, h, hf, hc, rfl⟩
    cases vy with
    | int y' =>
      cases vx with
      | int x' =>
        cases vd with
        | dataset d =>
          simp only [Option.bind_eq_some_iff, Option.map_eq_some_iff, Prod.mk.injEq] at h
          obtain ⟨as1, h1, as2, h2, rfl, rfl, rfl⟩ := h
          have hs := (assignAll_eq_ok (parse_keys_nodup h1 h2)).2 ⟨hf, rfl⟩
          rw [List.foldlM_append, bind_eq_ok] at hs
          obtain ⟨s1, h3, h4⟩ := hs
          refine ⟨_, ⟨y', x', as1, s1, rfl, rfl, h1, h3, rfl⟩, _, rfl, _, rfl, _, rfl, ?_⟩
          simp only [bind_eq_ok, copyRestart_eq, putRestarts_eq_ok, pure_eq_ok]
          refine ⟨_, ⟨_, ⟨as2, h2, h4⟩, rfl⟩, _, writeResults_eq_ok.2 ⟨?_, rfl⟩, writeRestart_eq_ok.2 ⟨?_, rfl⟩⟩
          · exact fun w hw => (hc.1 w hw).shape (putAll_shape _ _ _ _)
          · exact fun w hw => (hc.2 w hw).shape (putAll_shape _ _ _ _)
        | _ => cases h
      | _ => cases h
    | _ => cases h

theorem IOState.next_canWrite {io : IOState α} {y x : Nat} {as : List (String × Val α)} (h : io.CanWrite) :
    (io.next y x as).CanWrite :=
  ⟨fun w hw => (h.1 w hw).shape (putAll_shape _ _ _ _), fun w hw => (h.2 w hw).shape (putAll_shape _ _ _ _)⟩

theorem IOState.canWrite_of_next {io : IOState α} {y x : Nat} {as : List (String × Val α)} (h : (io.next y x as).CanWrite) :
    io.CanWrite :=
  ⟨fun w hw => (h.1 w hw).shape (putAll_shape _ _ _ _).symm, fun w hw => (h.2 w hw).shape (putAll_shape _ _ _ _).symm⟩

theorem parseCalls_next (io : IOState α) (y x : Nat) (as : List (String × Val α)) (args : List (PyVal α)) :
    ∀ cs, parseCalls (io.next y x as) args cs = parseCalls io args cs
  | [] => rfl
  | c :: cs => by
    unfold parseCalls
    rw [parseCalls_next io y x as args cs]
    have : (io.next y x as).wants c.1 c.2.1 = io.wants c.1 c.2.1 := by cases c.1 <;> rfl
    rw [this]

theorem parseRes_next (io : IOState α) (y x : Nat) (as : List (String × Val α)) (res : List (PyVal α)) :
    parseRes (io.next y x as) res = parseRes io res := by
  unfold parseRes
  simp only [parseCalls_next]

theorem overwrite_overwrite (f : String → String) (ns : List String) (a a' ds : Store (Arr α)) :
    overwrite f ns a (overwrite f ns a' ds) = overwrite f ns a ds := by
  funext k
  unfold overwrite
  split_ifs <;> rfl

theorem IOState.next_comm (io : IOState α) {y x y' x' : Nat} (h : ¬ (y = y' ∧ x = x')) (as as' : List (String × Val α)) :
    (io.next y x as).next y' x' as' = (io.next y' x' as').next y x as := by
  unfold IOState.next
  simp only [overwrite_overwrite, putAll_comm h]
  congr 1
  exact (overwrite_overwrite ..).trans (overwrite_overwrite ..).symm

end
end Cosipy
