import Verif.Lemmas.IO

/-! Proof machinery for the aggregation of results: the whole loop. No statements about the program live here. -/

set_option autoImplicit false
set_option linter.unusedSectionVars false

namespace Cosipy
section
variable {α : Type}

/-- A worker's result names a cell. -/
def ResultOf (res : List (PyVal α)) (y x : Nat) : Prop := res[0]? = some (.int y) ∧ res[1]? = some (.int x)

theorem parseRes_cell {io : IOState α} {res : List (PyVal α)} {y x y' x' : Nat} {as : List (String × Val α)}
    (hc : ResultOf res y x) (h : parseRes io res = some (y', x', as)) : y' = y ∧ x' = x := by
  have hy : lookupLast mainUnpack res "indY" = .ok (.int y) := lookupLast_get mainUnpack_nodup (i := 0) rfl hc.1
  have hx : lookupLast mainUnpack res "indX" = .ok (.int x) := lookupLast_get mainUnpack_nodup (i := 1) rfl hc.2
  unfold parseRes at h
  rw [hy, hx] at h
  split at h
  · next e1 e2 e3 e4 =>
    cases e1; cases e2
    simp only [Option.bind_eq_some_iff, Option.map_eq_some_iff, Prod.mk.injEq] at h
    obtain ⟨_, _, _, _, rfl, rfl, _⟩ := h
    exact ⟨rfl, rfl⟩
  · cases h

theorem lookup_of_mem {β : Type} {k : String} {v : β} : ∀ {as : List (String × β)}, (as.map Prod.fst).Nodup →
    (k, v) ∈ as → as.lookup k = some v
  | [], _, h => (List.not_mem_nil h).elim
  | (k', v') :: as, hn, h => by
    rw [List.map_cons, List.nodup_cons] at hn
    rcases List.mem_cons.1 h with h | h'
    · cases h; simp [List.lookup]
    · have : k ≠ k' := by
        rintro rfl; exact hn.1 (List.mem_map.2 ⟨_, h', rfl⟩)
      have e : (k == k') = false := by simpa using this
      rw [List.lookup, e]
      exact lookup_of_mem hn.2 h'

theorem mem_of_lookup {β : Type} {k : String} {v : β} : ∀ {as : List (String × β)}, as.lookup k = some v → (k, v) ∈ as
  | [], h => by cases h
  | (k', v') :: as, h => by
    rw [List.lookup] at h
    split at h
    · next e => cases h; rw [show k = k' by simpa using e]; exact List.mem_cons_self ..
    · exact List.mem_cons_of_mem _ (mem_of_lookup h)

theorem parseCalls_mem {io : IOState α} {args : List (PyVal α)} {c : OutKind × String × String}
    (hw : io.wants c.1 c.2.1 = true) : ∀ {cs as}, parseCalls io args cs = some as → c ∈ cs →
    ∃ v, lookupLast copyParams args c.2.2 = .ok (.arr v) ∧ (attrName c.1 c.2.1, v) ∈ as
  | [], _, _, h => (List.not_mem_nil h).elim
  | d :: cs, as, h, hm => by
    unfold parseCalls at h
    rcases List.mem_cons.1 hm with rfl | hm
    · rw [if_pos hw] at h
      split at h
      · next v hv =>
        rw [Option.map_eq_some_iff] at h
        obtain ⟨as', _, rfl⟩ := h
        exact ⟨v, hv, List.mem_cons_self ..⟩
      · cases h
    · split_ifs at h
      · split at h
        · rw [Option.map_eq_some_iff] at h
          obtain ⟨as', h, rfl⟩ := h
          obtain ⟨v, h1, h2⟩ := parseCalls_mem hw h hm
          exact ⟨v, h1, List.mem_cons_of_mem _ h2⟩
        · cases h
      · exact parseCalls_mem hw h hm

theorem parseRestart_mem {d : Store (Val α)} {n : String} : ∀ {ns as}, parseRestart d ns = some as → n ∈ ns →
    ∃ v, d n = some v ∧ ("RES_" ++ n, v) ∈ as
  | [], _, _, h => (List.not_mem_nil h).elim
  | m :: ns, as, h, hm => by
    unfold parseRestart at h
    rw [Option.bind_eq_some_iff] at h
    obtain ⟨v, hv, h⟩ := h
    rw [Option.map_eq_some_iff] at h
    obtain ⟨as', h, rfl⟩ := h
    rcases List.mem_cons.1 hm with rfl | hm
    · exact ⟨v, hv, List.mem_cons_self ..⟩
    · obtain ⟨v', h1, h2⟩ := parseRestart_mem h hm
      exact ⟨v', h1, List.mem_cons_of_mem _ h2⟩

/-- Position of the value for a parameter of the storing routine in the worker's tuple. -/
def sourceIdx (param : String) : Nat := mainUnpack.idxOf (mainCall.getD (copyParams.idxOf param) "")

theorem parseRes_value {io : IOState α} {res : List (PyVal α)} {y x : Nat} {as : List (String × Val α)}
    (h : parseRes io res = some (y, x, as)) {c : OutKind × String × String}
    (hc : c ∈ copyCalls) (hw : io.wants c.1 c.2.1 = true) (hl : res.length = mainUnpack.length) :
    ∃ v, res[sourceIdx c.2.2]? = some (.arr v) ∧ as.lookup (attrName c.1 c.2.1) = some v := by
  obtain ⟨args, ha, hal, hwire⟩ := mainCall_args hl
  unfold parseRes at h
  rw [ha] at h
  split at h
  · next e1 e2 e3 e4 =>
    cases e4
    simp only [Option.bind_eq_some_iff, Option.map_eq_some_iff, Prod.mk.injEq] at h
    obtain ⟨as1, h1, as2, h2, rfl, rfl, rfl⟩ := h
    obtain ⟨v, hv, hm⟩ := parseCalls_mem hw h1 hc
    refine ⟨v, ?_, lookup_of_mem (parse_keys_nodup h1 h2) (List.mem_append_left _ hm)⟩
    have hpos : ∀ c ∈ copyCalls, copyParams[copyParams.idxOf c.2.2]? = some c.2.2 ∧
        mainCall[copyParams.idxOf c.2.2]? = some (mainCall.getD (copyParams.idxOf c.2.2) "") ∧
        mainUnpack[sourceIdx c.2.2]? = some (mainCall.getD (copyParams.idxOf c.2.2) "") := by decide +kernel
    obtain ⟨p1, p2, p3⟩ := hpos c hc
    rw [hwire _ _ _ p2 p1] at hv
    have hlt : sourceIdx c.2.2 < res.length := by rw [hl]; exact (List.getElem?_eq_some_iff.1 p3).1
    have := lookupLast_get mainUnpack_nodup p3 (List.getElem?_eq_getElem hlt)
    rw [hv] at this
    rw [List.getElem?_eq_getElem hlt, ← Except.ok.inj this]
  · cases h

theorem parseRes_restart {io : IOState α} {res : List (PyVal α)} {y x : Nat} {as : List (String × Val α)}
    (h : parseRes io res = some (y, x, as)) (hl : res.length = mainUnpack.length) {n : String} (hn : n ∈ restartNames) :
    ∃ d v, res[2]? = some (.dataset d) ∧ d n = some v ∧ as.lookup ("RES_" ++ n) = some v := by
  unfold parseRes at h
  split at h
  · next e1 e2 e3 e4 =>
    simp only [Option.bind_eq_some_iff, Option.map_eq_some_iff, Prod.mk.injEq] at h
    obtain ⟨as1, h1, as2, h2, rfl, rfl, rfl⟩ := h
    obtain ⟨v, hv, hm⟩ := parseRestart_mem h2 hn
    refine ⟨_, v, ?_, hv, lookup_of_mem (parse_keys_nodup h1 h2) (List.mem_append_right _ hm)⟩
    have hlt : 2 < res.length := by rw [hl]; decide
    have := lookupLast_get mainUnpack_nodup (n := "local_restart") (i := 2) rfl (List.getElem?_eq_getElem hlt)
    rw [e3] at this
    rw [List.getElem?_eq_getElem hlt, ← Except.ok.inj this]
  · cases h

/-! ## The loop -/

/-- The two halves of the loop over finished tasks run independently. -/
theorem collectAll_eq_ok {sc : StakeCfg} : ∀ {done : List (M (List (PyVal α)))} {s s' : IOState α × StakeState α},
    collectAll sc s done = .ok s' ↔ done.foldlM (fun io r => r >>= collectIO io) s.1 = .ok s'.1 ∧
      done.foldlM (fun st r => r >>= collectStakesOf sc st) s.2 = .ok s'.2
  | [], s, s' => by
    unfold collectAll
    simp only [List.foldlM_nil, pure_eq_ok]
    constructor
    · rintro rfl; exact ⟨rfl, rfl⟩
    · rintro ⟨h1, h2⟩; exact Prod.ext h1 h2
  | r :: done, s, s' => by
    have ih := fun s => collectAll_eq_ok (sc := sc) (done := done) (s := s) (s' := s')
    unfold collectAll at ih ⊢
    simp only [List.foldlM_cons, bind_eq_ok]
    constructor
    · rintro ⟨s1, ⟨v, rfl, h1⟩, h2⟩
      unfold collectOne at h1
      simp only [bind_eq_ok, pure_eq_ok] at h1
      obtain ⟨io1, h3, st1, h4, rfl⟩ := h1
      obtain ⟨h5, h6⟩ := (ih _).1 h2
      exact ⟨⟨io1, ⟨v, rfl, h3⟩, h5⟩, ⟨st1, ⟨v, rfl, h4⟩, h6⟩⟩
    · rintro ⟨⟨io1, ⟨v, rfl, h3⟩, h5⟩, ⟨st1, ⟨v', hv, h4⟩, h6⟩⟩
      cases hv
      refine ⟨(io1, st1), ⟨v, rfl, ?_⟩, (ih _).2 ⟨h5, h6⟩⟩
      unfold collectOne
      simp only [bind_eq_ok, pure_eq_ok]
      exact ⟨io1, h3, st1, h4, rfl⟩

/-- Results that, if both returned, are for different cells. -/
def DifferentCells (a b : M (List (PyVal α))) : Prop :=
  ∀ va vb, a = .ok va → b = .ok vb → ∃ y x y' x', ResultOf va y x ∧ ResultOf vb y' x' ∧ ¬ (y = y' ∧ x = x')

theorem DifferentCells.symm {a b : M (List (PyVal α))} (h : DifferentCells a b) : DifferentCells b a := by
  intro vb va hb ha
  obtain ⟨y, x, y', x', h1, h2, h3⟩ := h va vb ha hb
  exact ⟨y', x', y, x, h2, h1, fun e => h3 ⟨e.1.symm, e.2.symm⟩⟩

theorem collectIO_comm {io s1 s2 : IOState α} {a b : M (List (PyVal α))} (hab : DifferentCells a b)
    (h1 : (a >>= collectIO io) = .ok s1) (h2 : (b >>= collectIO s1) = .ok s2) :
    ∃ s1', (b >>= collectIO io) = .ok s1' ∧ (a >>= collectIO s1') = .ok s2 := by
  rw [bind_eq_ok] at h1 h2
  obtain ⟨va, rfl, h1⟩ := h1
  obtain ⟨vb, rfl, h2⟩ := h2
  obtain ⟨y, x, y', x', c1, c2, hne⟩ := hab va vb rfl rfl
  rw [collectIO_eq_ok] at h1
  obtain ⟨l1, y1, x1, as1, p1, f1, w1, rfl⟩ := h1
  rw [collectIO_eq_ok] at h2
  obtain ⟨l2, y2, x2, as2, p2, f2, w2, rfl⟩ := h2
  obtain ⟨rfl, rfl⟩ := parseRes_cell c1 p1
  obtain ⟨rfl, rfl⟩ := parseRes_cell c2 p2
  rw [parseRes_next] at p2
  refine ⟨io.next y2 x2 as2, ?_, ?_⟩
  · rw [ok_bind, collectIO_eq_ok]
    exact ⟨l2, y2, x2, as2, p2, fun p hp => (f2 p hp).shape (putAll_shape _ _ _ _).symm, w1, rfl⟩
  · rw [ok_bind, collectIO_eq_ok]
    refine ⟨l1, y1, x1, as1, ?_, fun p hp => (f1 p hp).shape (putAll_shape _ _ _ _), IOState.next_canWrite w1, ?_⟩
    · rw [parseRes_next]; exact p1
    · exact IOState.next_comm io hne as1 as2

/-- A fold whose steps succeed or fail whatever the state is. -/
theorem foldlM_ok_iff {σ ρ : Type} {f : σ → ρ → M σ} {P : ρ → Prop} (h : ∀ s a, (∃ s', f s a = .ok s') ↔ P a) :
    ∀ {l : List ρ} {s : σ}, (∃ s', l.foldlM f s = .ok s') ↔ ∀ a ∈ l, P a
  | [], s => by
    constructor
    · intro _ a ha; exact (List.not_mem_nil ha).elim
    · intro _; exact ⟨s, rfl⟩
  | a :: l, s => by
    have ih := fun s => foldlM_ok_iff h (l := l) (s := s)
    rw [List.foldlM_cons]
    simp only [bind_eq_ok]
    constructor
    · rintro ⟨s', s1, h1, h2⟩ b hb
      rcases List.mem_cons.1 hb with rfl | hb
      · exact (h s b).1 ⟨s1, h1⟩
      · exact (ih s1).1 ⟨s', h2⟩ b hb
    · intro hP
      obtain ⟨s1, h1⟩ := (h s a).2 (hP a (List.mem_cons_self ..))
      obtain ⟨s', h2⟩ := (ih s1).2 fun b hb => hP b (List.mem_cons_of_mem _ hb)
      exact ⟨s', s1, h1, h2⟩

/-- Rows and columns a result contributes to the stake evaluation. -/
def stakePart (res : List (PyVal α)) : Option (List (String × α) × List String × Val α × Val α) :=
  match lookupLast mainUnpack res "stake_names", lookupLast mainUnpack res "stat", lookupLast mainUnpack res "df_eval" with
  | .ok (.names ns), .ok (.rows rs), .ok (.frame mb sh) => some (rs, ns, mb, sh)
  | _, _, _ => none

/-- Columns written for stakes. -/
def setColumns (sc : StakeCfg) (ns : List String) (mb sh : Val α) (s : Store (Val α)) : Store (Val α) :=
  ns.foldl (fun s i =>
    let s := if sc.obsMb then s.set i mb else s
    if sc.obsSnow then s.set i sh else s) s

theorem collectStakesOf_eq_ok {sc : StakeCfg} (he : sc.evaluation = true) {st st' : StakeState α} {res : List (PyVal α)} :
    collectStakesOf sc st res = .ok st' ↔ ∃ rs ns mb sh, stakePart res = some (rs, ns, mb, sh) ∧
      st' = ⟨st.stat ++ rs, setColumns sc ns mb sh st.vals⟩ := by
  unfold collectStakesOf stakePart collectStakes
  rcases lookupLast mainUnpack res "stake_names" with e1 | v1
  · constructor
    · intro h; cases h
    · rintro ⟨_, _, _, _, h, _⟩; cases h
  rcases lookupLast mainUnpack res "stat" with e2 | v2
  · constructor
    · intro h; cases h
    · rintro ⟨_, _, _, _, h, _⟩; cases v1 <;> cases h
  rcases lookupLast mainUnpack res "df_eval" with e3 | v3
  · constructor
    · intro h; cases h
    · rintro ⟨_, _, _, _, h, _⟩; cases v1 <;> cases v2 <;> cases h
  simp only [ok_bind, he, if_true]
  cases v2 with
  | rows rs =>
    cases v1 with
    | names ns =>
      cases v3 with
      | frame mb sh =>
        simp only [ok_inj, Option.some.injEq, Prod.mk.injEq]
        constructor
        · rintro rfl; exact ⟨rs, ns, mb, sh, ⟨rfl, rfl, rfl, rfl⟩, rfl⟩
        · rintro ⟨_, _, _, _, ⟨rfl, rfl, rfl, rfl⟩, rfl⟩; rfl
      | _ =>
        constructor
        · intro h; cases h
        · rintro ⟨_, _, _, _, h, _⟩; cases h
    | _ =>
      constructor
      · intro h; cases h
      · rintro ⟨_, _, _, _, h, _⟩; cases h
  | _ =>
    constructor
    · intro h; cases h
    · rintro ⟨_, _, _, _, h, _⟩; cases v1 <;> cases h

theorem collectStakesOf_ok_iff (sc : StakeCfg) (st st' : StakeState α) (r : M (List (PyVal α))) :
    (∃ s, (r >>= collectStakesOf sc st) = .ok s) ↔ ∃ s, (r >>= collectStakesOf sc st') = .ok s := by
  rcases r with e | v
  · exact Iff.rfl
  simp only [ok_bind]
  by_cases he : sc.evaluation = true
  · simp only [collectStakesOf_eq_ok he]
    constructor
    · rintro ⟨_, rs, ns, mb, sh, h, _⟩; exact ⟨_, rs, ns, mb, sh, h, rfl⟩
    · rintro ⟨_, rs, ns, mb, sh, h, _⟩; exact ⟨_, rs, ns, mb, sh, h, rfl⟩
  · have : ∀ (st st' : StakeState α) s, collectStakesOf sc st v = .ok s → collectStakesOf sc st' v = .ok st' := by
      intro st st' s h
      unfold collectStakesOf collectStakes at h ⊢
      simp only [if_neg he, bind_eq_ok] at h ⊢
      obtain ⟨a, ha, b, hb, c, hc, _⟩ := h
      exact ⟨a, ha, b, hb, c, hc, trivial⟩
    constructor
    · rintro ⟨s, h⟩; exact ⟨_, this _ _ _ h⟩
    · rintro ⟨s, h⟩; exact ⟨_, this _ _ _ h⟩

end
end Cosipy
