import Verif.Model.Config
import Verif.Lemmas.IO
import Mathlib.Data.List.Nodup

/-! Lemmas about dictionaries and the loading of configuration files. -/

set_option autoImplicit false
set_option linter.unusedSectionVars false

namespace Cosipy

/-- The last entry for `k` in the list has the value `v`. -/
def LastValue {β : Type} (l : List (String × β)) (k : String) (v : β) : Prop :=
  ∃ pre post, l = pre ++ (k, v) :: post ∧ ∀ p ∈ post, p.1 ≠ k

/-- All key-value pairs of a file in order. -/
def Toml.flat (c : Toml) : List (String × CfgVal) :=
  c.flatMap fun e => match e.2 with
    | .table t => t
    | .scalar _ => []

/-- Keys of a dictionary are distinct, at both levels. -/
def Toml.Valid (c : Toml) : Prop :=
  (c.map Prod.fst).Nodup ∧ ∀ n t, (n, TopVal.table t) ∈ c → (t.map Prod.fst).Nodup

/-- The key occurs in no other table than `n`. -/
def Toml.OnlyIn (c : Toml) (k n : String) : Prop :=
  ∀ m t, (m, TopVal.table t) ∈ c → m ≠ n → k ∉ t.map Prod.fst

section
variable {β : Type}

theorem Dict.lookup_set (d : Dict β) (k k' : String) (v : β) :
    List.lookup k' (Dict.set d k v) = if k' = k then some v else List.lookup k' d := by
  induction d with
  | nil =>
    unfold Dict.set
    by_cases h : k' = k
    · subst h; simp
    · rw [if_neg h, List.lookup_cons, beq_eq_false_iff_ne.2 h]
  | cons p d ih =>
    obtain ⟨a, b⟩ := p
    unfold Dict.set
    by_cases h : a = k
    · subst h
      rw [if_pos rfl, List.lookup_cons, List.lookup_cons]
      by_cases h' : k' = a
      · subst h'; simp
      · rw [beq_eq_false_iff_ne.2 h', if_neg h']
    · rw [if_neg h, List.lookup_cons, List.lookup_cons]
      by_cases h' : k' = a
      · subst h'; simp [h]
      · rw [beq_eq_false_iff_ne.2 h', ih]

theorem Dict.get_eq_ok {d : Dict β} {k : String} {v : β} : d.get k = .ok v ↔ List.lookup k d = some v := by
  unfold Dict.get
  cases List.lookup k d with
  | none => simp
  | some w => simp

theorem Dict.set_same {d : Dict β} {k : String} {v : β} (h : List.lookup k d = some v) : d.set k v = d := by
  induction d with
  | nil => cases h
  | cons p d ih =>
    obtain ⟨a, b⟩ := p
    unfold Dict.set
    rw [List.lookup_cons] at h
    by_cases e : a = k
    · subst e
      simp only [beq_self_eq_true] at h
      cases h
      rw [if_pos rfl]
    · rw [if_neg e]
      rw [beq_eq_false_iff_ne.2 (Ne.symm e)] at h
      rw [ih h]

theorem Dict.set_keys (d : Dict β) (k : String) (v : β) :
    (Dict.set d k v).map Prod.fst = if k ∈ d.map Prod.fst then d.map Prod.fst else d.map Prod.fst ++ [k] := by
  induction d with
  | nil => simp [Dict.set]
  | cons p d ih =>
    obtain ⟨a, b⟩ := p
    unfold Dict.set
    by_cases h : a = k
    · subst h; simp
    · rw [if_neg h]
      simp only [List.map_cons, List.mem_cons, Ne.symm h, false_or, ih]
      split_ifs <;> simp

theorem Dict.set_nodup {d : Dict β} (h : (d.map Prod.fst).Nodup) (k : String) (v : β) :
    ((Dict.set d k v).map Prod.fst).Nodup := by
  rw [Dict.set_keys]
  split_ifs with hk
  · exact h
  · rw [List.nodup_append]
    refine ⟨h, List.nodup_singleton _, ?_⟩
    intro a ha b hb
    rw [List.mem_singleton.1 hb]
    rintro rfl
    exact hk ha

theorem Dict.mem_set {d : Dict β} {k : String} {v : β} {p : String × β} (h : p ∈ Dict.set d k v) :
    p = (k, v) ∨ p ∈ d := by
  induction d with
  | nil => exact Or.inl (List.mem_singleton.1 h)
  | cons q d ih =>
    obtain ⟨a, b⟩ := q
    unfold Dict.set at h
    split_ifs at h with e
    · subst e
      rcases List.mem_cons.1 h with h | h
      · exact Or.inl h
      · exact Or.inr (List.mem_cons_of_mem _ h)
    · rcases List.mem_cons.1 h with h | h
      · exact Or.inr (h ▸ List.mem_cons_self ..)
      · rcases ih h with h | h
        · exact Or.inl h
        · exact Or.inr (List.mem_cons_of_mem _ h)

/-- The value found is the last one when keys are distinct. -/
theorem lookup_split {d : List (String × β)} {k : String} {v : β} (hn : (d.map Prod.fst).Nodup)
    (h : List.lookup k d = some v) : LastValue d k v := by
  induction d with
  | nil => cases h
  | cons p d ih =>
    obtain ⟨a, b⟩ := p
    rw [List.map_cons, List.nodup_cons] at hn
    rw [List.lookup_cons] at h
    by_cases e : k = a
    · subst e
      simp only [beq_self_eq_true] at h
      cases h
      refine ⟨[], d, rfl, ?_⟩
      rintro p hp rfl
      exact hn.1 (List.mem_map.2 ⟨p, hp, rfl⟩)
    · rw [beq_eq_false_iff_ne.2 e] at h
      obtain ⟨pre, post, rfl, hp⟩ := ih hn.2 h
      exact ⟨(a, b) :: pre, post, rfl, hp⟩

theorem foldl_set_absent {l : List (String × β)} {s : Store β} {k : String} (h : ∀ p ∈ l, p.1 ≠ k) :
    (l.foldl (fun s p => s.set p.1 p.2) s) k = s k := by
  induction l generalizing s with
  | nil => rfl
  | cons p l ih =>
    rw [List.foldl_cons, ih (fun q hq => h q (List.mem_cons_of_mem _ hq))]
    unfold Store.set
    rw [if_neg (Ne.symm (h p (List.mem_cons_self ..)))]

theorem foldl_set_last {l : List (String × β)} {s : Store β} {k : String} {v : β} (h : LastValue l k v) :
    (l.foldl (fun s p => s.set p.1 p.2) s) k = some v := by
  obtain ⟨pre, post, rfl, hp⟩ := h
  rw [List.foldl_append, List.foldl_cons, foldl_set_absent hp]
  unfold Store.set
  rw [if_pos rfl]

end

theorem setConfigValues_eq_ok {c : Toml} : ∀ {s s' : Store CfgVal}, setConfigValues s c = .ok s' →
    s' = c.flat.foldl (fun s p => s.set p.1 p.2) s := by
  unfold setConfigValues Toml.flat
  induction c with
  | nil => intro s s' h; rw [List.foldlM_nil, pure_eq_ok] at h; exact h.symm
  | cons e c ih =>
    intro s s' h
    rw [List.foldlM_cons, bind_eq_ok] at h
    obtain ⟨s1, h1, h2⟩ := h
    rw [ih h2, List.flatMap_cons, List.foldl_append]
    obtain ⟨n, t | v⟩ := e
    · cases h1; rfl
    · cases h1

theorem Toml.table_eq_ok {c : Toml} {n : String} {t : Dict CfgVal} :
    c.table n = .ok t ↔ List.lookup n c = some (.table t) := by
  unfold Toml.table
  rw [bind_eq_ok]
  constructor
  · rintro ⟨v, h1, h2⟩
    rw [Dict.get_eq_ok] at h1
    cases v with
    | table t' => cases h2; exact h1
    | scalar _ => cases h2
  · intro h
    exact ⟨.table t, Dict.get_eq_ok.2 h, rfl⟩

theorem Toml.item_eq_ok {c : Toml} {n k : String} {v : CfgVal} :
    c.item n k = .ok v ↔ ∃ t, List.lookup n c = some (.table t) ∧ List.lookup k t = some v := by
  unfold Toml.item
  simp only [bind_eq_ok, Toml.table_eq_ok, Dict.get_eq_ok]

theorem Toml.setItem_eq_ok {c c' : Toml} {n k : String} {v : CfgVal} :
    c.setItem n k v = .ok c' ↔ ∃ t, List.lookup n c = some (.table t) ∧ c' = Dict.set c n (.table (t.set k v)) := by
  unfold Toml.setItem
  simp only [bind_eq_ok, Toml.table_eq_ok, pure_eq_ok]
  exact exists_congr fun t => and_congr_right fun _ => eq_comm

/-- Reading after an assignment. -/
theorem Toml.item_setItem {c c' : Toml} {n k : String} {v : CfgVal} (h : c.setItem n k v = .ok c') (m j : String) :
    c'.item m j = if m = n ∧ j = k then .ok v else c.item m j := by
  obtain ⟨t, ht, rfl⟩ := Toml.setItem_eq_ok.1 h
  have key : ∀ (c : Toml) (u : Dict CfgVal), List.lookup m c = some (.table u) → c.item m j = u.get j := by
    intro c u hu
    unfold Toml.item
    rw [Toml.table_eq_ok.2 hu, ok_bind]
  by_cases hm : m = n
  · subst hm
    rw [key _ (t.set k v) (by rw [Dict.lookup_set, if_pos rfl]), key c t ht]
    unfold Dict.get
    rw [Dict.lookup_set]
    by_cases hj : j = k
    · rw [if_pos hj, if_pos ⟨rfl, hj⟩]
    · rw [if_neg hj, if_neg (fun e => hj e.2)]
  · rw [if_neg (fun e => hm e.1)]
    unfold Toml.item Toml.table Dict.get
    rw [Dict.lookup_set, if_neg hm]

theorem Toml.mem_of_lookup {c : Toml} {n : String} {t : TopVal} (h : List.lookup n c = some t) : (n, t) ∈ c := by
  induction c with
  | nil => cases h
  | cons p c ih =>
    obtain ⟨a, b⟩ := p
    rw [List.lookup_cons] at h
    by_cases e : n = a
    · subst e
      simp only [beq_self_eq_true] at h
      cases h
      exact List.mem_cons_self ..
    · rw [beq_eq_false_iff_ne.2 e] at h
      exact List.mem_cons_of_mem _ (ih h)

theorem Toml.setItem_valid {c c' : Toml} {n k : String} {v : CfgVal} (hv : c.Valid) (h : c.setItem n k v = .ok c') :
    c'.Valid := by
  obtain ⟨t, ht, rfl⟩ := Toml.setItem_eq_ok.1 h
  refine ⟨Dict.set_nodup hv.1 _ _, fun m u hu => ?_⟩
  rcases Dict.mem_set hu with e | hu
  · cases e
    exact Dict.set_nodup (hv.2 _ _ (Toml.mem_of_lookup ht)) _ _
  · exact hv.2 m u hu

theorem Toml.setItem_onlyIn {c c' : Toml} {n k : String} {v : CfgVal} {j m : String} (ho : c.OnlyIn j m)
    (h : c.setItem n k v = .ok c') (hne : k ≠ j ∨ n = m) : c'.OnlyIn j m := by
  obtain ⟨t, ht, rfl⟩ := Toml.setItem_eq_ok.1 h
  intro n' u hu hn'
  rcases Dict.mem_set hu with e | hu
  · cases e
    have h0 := ho _ _ (Toml.mem_of_lookup ht) hn'
    rw [Dict.set_keys]
    have hkj : k ≠ j := hne.resolve_right hn'
    split_ifs
    · exact h0
    · intro hc
      rcases List.mem_append.1 hc with hc | hc
      · exact h0 hc
      · exact hkj (List.mem_singleton.1 hc).symm
  · exact ho n' u hu hn'

/-- In a file with distinct keys, a key that occurs in one table only has the value of that table last. -/
theorem Toml.last_of_item {c : Toml} (hv : c.Valid) {k n : String} (ho : c.OnlyIn k n) {v : CfgVal}
    (h : c.item n k = .ok v) : LastValue c.flat k v := by
  obtain ⟨t, ht, hk⟩ := Toml.item_eq_ok.1 h
  obtain ⟨p, q, et, hq⟩ := lookup_split (hv.2 _ _ (Toml.mem_of_lookup ht)) hk
  obtain ⟨pre, post, ec, hp⟩ := lookup_split hv.1 ht
  refine ⟨Toml.flat pre ++ p, q ++ Toml.flat post, ?_, ?_⟩
  · rw [ec]
    unfold Toml.flat
    rw [List.flatMap_append, List.flatMap_cons]
    simp only [et, List.append_assoc, List.cons_append]
  · intro r hr
    rcases List.mem_append.1 hr with hr | hr
    · exact hq r hr
    · unfold Toml.flat at hr
      obtain ⟨e, he, hr⟩ := List.mem_flatMap.1 hr
      obtain ⟨m, u | w⟩ := e
      · rintro rfl
        refine ho m u ?_ (hp _ he) (List.mem_map.2 ⟨r, hr, rfl⟩)
        rw [ec]
        exact List.mem_append_right _ (List.mem_cons_of_mem _ he)
      · cases hr

/-- Conversely, the value after loading is that of the table. -/
theorem Toml.load_item {c : Toml} (hv : c.Valid) {k n : String} (ho : c.OnlyIn k n) {v : CfgVal}
    (h : c.item n k = .ok v) {s s' : Store CfgVal} (hl : setConfigValues s c = .ok s') : s' k = some v := by
  rw [setConfigValues_eq_ok hl]
  exact foldl_set_last (Toml.last_of_item hv ho h)

end Cosipy
