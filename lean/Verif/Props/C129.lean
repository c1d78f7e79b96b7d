import Verif.Props.C110
import Verif.Props.C84
import Verif.Props.C05

/-!
# C129 Remeshing conserves the column in double precision up to the roundings

C05 says in exact arithmetic that logarithmic remeshing conserves water, ice and height. In double precision each merge and each split changes them by
a few roundings; how many merges and splits there are is bounded by the number of layers and the height of the column.
-/

set_option autoImplicit false
set_option linter.unusedSectionVars false

namespace Cosipy
section
variable {K : Type} [Field K] [LinearOrder K] [IsStrictOrderedRing K] [FloorRing K] {p : ℕ} {emin : ℤ} {hp : 23 ≤ p} {he : emin ≤ -30}

local notation "F" => Fl (binary K p emin hp he)
local notation "γ" => grow K p
local notation "η" => underflowUnit K p emin
local notation "u" => unitRoundoff K p

/-- Error of one elementary change of the layers: thickness, water and ice. -/
structure SmallChange (ns ms : List (Node F)) : Prop where
  thick : Amount p 1 0 (exactTotal thickOf ns) (exactTotal thickOf ms)
  water : Amount p 3 (γ ^ 2 * η * (2 + exactTotal thickOf ns)) (exactTotal waterOf ns) (exactTotal waterOf ms)
  ice : Amount p 3 (γ ^ 2 * η * (2 + exactTotal thickOf ns)) (exactTotal iceOf ns) (exactTotal iceOf ms)

theorem SolidLayer.iceOf {n : Node F} (h : SolidLayer n) : 0 ≤ iceOf n := mul_nonneg h.ice h.thick.le

theorem exactTotal_perm {β : Type} (f : β → K) {ns ms : List β} (h : ns.Perm ms) : exactTotal f ns = exactTotal f ms :=
  (h.map f).sum_eq

/-- Errors of the parts that change are errors of the column. -/
theorem SmallChange.local {ns ms rest old new : List (Node F)} (h1 : ns.Perm (old ++ rest)) (h2 : ms.Perm (new ++ rest))
    (hr : ∀ n ∈ rest, SolidLayer n) (h : SmallChange old new) : SmallChange ns ms := by
  have hη := underflow_pos (K := K) (p := p) (emin := emin)
  have ht : 0 ≤ exactTotal thickOf rest := exactTotal_nonneg _ fun n hn => (hr n hn).thick.le
  have e1 : ∀ f : Node F → K, exactTotal f ns = exactTotal f old + exactTotal f rest := fun f => by
    rw [exactTotal_perm f h1, exactTotal_append]
  have e2 : ∀ f : Node F → K, exactTotal f ms = exactTotal f new + exactTotal f rest := fun f => by
    rw [exactTotal_perm f h2, exactTotal_append]
  have hsl : γ ^ 2 * η * (2 + exactTotal thickOf old) + 0 ≤ γ ^ 2 * η * (2 + (exactTotal thickOf old + exactTotal thickOf rest)) := by
    rw [add_zero]
    exact mul_le_mul_of_nonneg_left (by linarith) (mul_pos (pow_pos grow_pos _) hη).le
  refine ⟨?_, ?_, ?_⟩
  · rw [e1, e2]
    exact (h.thick.add ((Amount.refl ht).weaken (Nat.zero_le 1) le_rfl)).weaken le_rfl (by simp)
  · rw [e1, e2, e1]
    exact (h.water.add ((Amount.refl (exactTotal_nonneg _ fun n hn => (hr n hn).waterOf)).weaken (Nat.zero_le 3) le_rfl)).weaken le_rfl hsl
  · rw [e1, e2, e1]
    exact (h.ice.add ((Amount.refl (exactTotal_nonneg _ fun n hn => (hr n hn).iceOf)).weaken (Nat.zero_le 3) le_rfl)).weaken le_rfl hsl

theorem add_pos_fl {a b : F} (ha : 0 < a) (hb : 0 < b) : 0 < a + b := by
  have := Rounded.add_mono (a := a) (b := a) (c := (0 : F)) (d := b) le_rfl hb.le
  rw [Rounded.add_zero] at this
  exact ha.trans_le this

theorem merged_solid {a b : Node F} (ha : SolidLayer a) (hb : SolidLayer b) : SolidLayer (Grid.merged a b) := by
  have := merged_nn ha.nn hb.nn
  exact ⟨add_pos_fl ha.thick hb.thick, this.ice, this.water⟩

theorem merged_change {a b : Node F} (ha : SolidLayer a) (hb : SolidLayer b) : SmallChange [a, b] [Grid.merged a b] := by
  have e1 : ∀ f : Node F → K, exactTotal f [a, b] = f a + f b := fun f => by simp
  have e2 : ∀ f : Node F → K, exactTotal f [Grid.merged a b] = f (Grid.merged a b) := fun f => by simp
  refine ⟨?_, ?_, ?_⟩
  · rw [e1, e2]
    have := ((Amount.refl (p := p) (show (0 : K) ≤ a.height.1 from ha.thick.le)).add (Amount.refl (p := p)
      (show (0 : K) ≤ b.height.1 from hb.thick.le))).rnd_add (Fl.kept a.height) (Fl.kept b.height)
    exact this.weaken le_rfl (by simp)
  · rw [e1, e2, e1]
    exact mix_amount ha.water hb.water ha.thick hb.thick
  · rw [e1, e2, e1]
    exact mix_amount ha.ice hb.ice ha.thick hb.thick

/-- Merging, also around the end of the column. -/
theorem mergeNodes_change {gr gr' : Grid F} {i : Int} (hi : 0 ≤ i ∨ (i = -1 ∧ 2 ≤ gr.nodes.length)) (hs : ∀ n ∈ gr.nodes, SolidLayer n)
    (h : gr.mergeNodes i = .ok gr') : SmallChange gr.nodes gr'.nodes ∧ ∀ n ∈ gr'.nodes, SolidLayer n := by
  rcases hi with hi | ⟨rfl, hl⟩
  · obtain ⟨pre, a, b, post, e1, e2⟩ := mergeNodes_parts hi h
    rw [e1] at hs
    have ha := hs a (by simp)
    have hb := hs b (by simp)
    rw [e1, e2]
    refine ⟨SmallChange.local (rest := pre ++ post) ?_ ?_ (fun n hn => hs n (by
      rcases List.mem_append.1 hn with h | h <;> simp [h])) (merged_change ha hb), ?_⟩
    · simpa using (List.perm_append_comm_assoc pre [a, b] post)
    · simp
    · intro n hn
      rcases List.mem_append.1 hn with h | h
      · exact hs n (by simp [h])
      · rcases List.mem_cons.1 h with rfl | h
        · exact merged_solid ha hb
        · exact hs n (by simp [h])
  · obtain ⟨pp, q, a, b, hp', hq, ha, hb, _, rfl⟩ := Grid.mergeNodes_ok h
    have hpe : pp = gr.nodes.length - 1 ∧ q = 0 := by
      unfold normIdx at hp' hq
      split_ifs at hp' hq <;> simp at hp' hq <;> omega
    obtain ⟨rfl, rfl⟩ := hpe
    obtain ⟨b0, tl, e⟩ := List.exists_cons_of_ne_nil (l := gr.nodes) (by intro h0; rw [h0] at hl; simp at hl)
    have htl : tl ≠ [] := by intro h0; rw [e, h0] at hl; simp at hl
    have etl : tl.dropLast ++ [tl.getLast htl] = tl := List.dropLast_append_getLast htl
    generalize tl.dropLast = mid at etl
    generalize tl.getLast htl = l at etl
    subst etl
    have eb : b0 = b := by rw [e] at hb; simpa using hb
    have ea : l = a := by
      rw [e] at ha
      have : (b0 :: (mid ++ [l])).length - 1 = (b0 :: mid).length := by simp
      rw [this, ← List.cons_append, List.getElem?_append_right (le_refl _)] at ha
      simpa using ha
    subst eb; subst ea
    have e3 : (gr.nodes.set (gr.nodes.length - 1) (Grid.merged l b0)).eraseIdx 0 = mid ++ [Grid.merged l b0] := by
      rw [e]
      have : (b0 :: (mid ++ [l])).length - 1 = mid.length + 1 := by simp
      rw [this]
      simp
    simp only
    rw [e3, e]
    rw [e] at hs
    have hl' := hs l (by simp)
    have hb' := hs b0 (by simp)
    refine ⟨SmallChange.local (rest := mid) ?_ ?_ (fun n hn => hs n (by simp [hn])) (merged_change hl' hb'), ?_⟩
    · have : (b0 :: (mid ++ [l])).Perm (b0 :: (l :: mid)) := (List.perm_append_singleton l mid).cons b0
      exact this.trans (List.Perm.swap l b0 mid)
    · exact List.perm_append_singleton _ _
    · intro n hn
      rcases List.mem_append.1 hn with h | h
      · exact hs n (by simp [h])
      · rw [List.mem_singleton.1 h]; exact merged_solid hl' hb'

/-! ## Splitting -/

/-- The difference of different kept numbers does not vanish. -/
theorem sub_pos_fl {a b : F} (h : b < a) : 0 < a - b := by
  have hu1 : u ≤ 1 / 4 := by
    unfold unitRoundoff
    calc (2 : K) ^ (-(p : ℤ) - 1) ≤ 2 ^ (-2 : ℤ) := zpow_le_zpow_right₀ (by norm_num) (by have := hp; omega)
      _ = 1 / 4 := by norm_num
  have h1 : (0 : K) < a.1 - b.1 := sub_pos.2 h
  have h2 := sub_rel (Fl.kept a) (Fl.kept b)
  rw [abs_of_pos h1] at h2
  have h3 : u * (a.1 - b.1) ≤ 1 / 4 * (a.1 - b.1) := mul_le_mul_of_nonneg_right hu1 h1.le
  have h4 : |(a - b).1 - (a.1 - b.1)| ≤ u * (a.1 - b.1) := h2
  have h5 : (0 : K) < (a - b).1 := by linarith [(abs_le.1 h4).1]
  exact h5

/-- The layers a split leaves. -/
theorem split_parts {gr gr' : Grid F} {c : Consts F} {i : Int} {h : F} (hi : 0 ≤ i) (hh : Grid.correctLayerSplit c i h gr = .ok gr') :
    gr' = gr ∨ ∃ pre a post θ, gr.nodes = pre ++ a :: post ∧ h < a.height ∧ a.irreducibleWaterContent = .ok θ ∧
      gr'.nodes = pre ++ { a with height := h, lwc := (if 0 < a.lwc - θ then θ * a.height else a.lwc * a.height) / h } ::
        ⟨a.height - h, a.temperature, (if 0 < a.lwc - θ then a.lwc * a.height - θ * a.height else 0) / (a.height - h), a.iceFraction, 0⟩ ::
        post := by
  unfold Grid.correctLayerSplit at hh
  rw [bind_eq_ok] at hh; obtain ⟨a, ha, hh⟩ := hh
  obtain ⟨k, hk, ha'⟩ := pyGet_eq_ok.1 ha
  obtain ⟨hk1, hk2⟩ := normIdx_eq_some_nonneg hi hk
  have hd : gr.nodes = gr.nodes.take k ++ a :: gr.nodes.drop (k + 1) := by
    conv_lhs => rw [← List.take_append_drop k gr.nodes, List.drop_eq_getElem_cons hk2]
    rw [List.getElem?_eq_getElem hk2] at ha'
    simp only [Option.some.injEq] at ha'
    rw [ha']
  have hl : (gr.nodes.take k).length = k := by simp; omega
  split_ifs at hh with hc
  · right
    simp only [bind_eq_ok] at hh
    obtain ⟨θ, hθ, lw0, h0, lw1, h1, g1, hg1, a', ha'', hh⟩ := hh
    have h0 := fdiv_ok h0
    have h1 := fdiv_ok h1
    subst h0 h1
    obtain ⟨k', hk', rfl⟩ := Grid.updateNode_eq_ok.1 hg1
    rw [hk] at hk'; cases hk'
    rw [pure_eq_ok] at hh; subst hh
    refine ⟨gr.nodes.take k, a, gr.nodes.drop (k + 1), θ, hd, hc, hθ, ?_⟩
    generalize gr.nodes.take k = pre at *
    generalize gr.nodes.drop (k + 1) = post at *
    subst hl
    have hmod : ∀ f : Node F → Node F, gr.nodes.modify pre.length f = pre ++ f a :: post := by
      intro f; rw [hd, modify_pre]
    have hii : i = (pre.length : Int) := by omega
    subst hii
    simp only
    rw [show ((pre.length : Int) + 1) = ((pre.length + 1 : Nat) : Int) by omega, pyInsert_nat]
    · rw [hmod]
      have := insertIdx_pre (pre ++ [Grid.upd h a.temperature a.iceFraction
        ((if 0 < a.lwc - θ then θ * a.height else a.lwc * a.height) / h) a])
        (Node.new c (a.height - h) (a'.density c) a.temperature
          ((if 0 < a.lwc - θ then a.lwc * a.height - θ * a.height else 0) / (a.height - h)) (some a.iceFraction)) post
      simpa [Grid.upd, Node.new] using this
    · rw [hmod]; simp
  · left
    rw [pure_eq_ok] at hh; exact hh.symm

/-- A quotient times its divisor. -/
theorem quot_amount {i : ℕ} {δ A : K} {x h : F} (hx : Amount p i δ A x.1) (hh : 0 < h) :
    Amount p (i + 1) (γ * δ + η * h.1) A ((x / h).1 * h.1) := by
  have hh' : (0 : K) < h.1 := hh
  have a := ((hx.quot hh').rnd (emin := emin)).scale hh'.le
  rw [div_mul_cancel₀ _ hh'.ne'] at a
  refine a.weaken le_rfl (le_of_eq ?_)
  field_simp

theorem split_thick {H h : F} (h0 : 0 < h) (h1 : h < H) : Amount p 1 0 H.1 (h.1 + (H - h).1) := by
  have a1 := (Amount.refl (p := p) (sub_nonneg.2 (show h.1 ≤ H.1 from h1.le))).rnd_sub (Fl.kept H) (Fl.kept h)
  have a2 := ((Amount.refl (p := p) (show (0 : K) ≤ h.1 from h0.le)).weaken (Nat.zero_le 1) le_rfl).add a1
  rw [add_sub_cancel] at a2
  exact a2.weaken le_rfl (by simp)

theorem grow_sq : γ ≤ γ ^ 2 := by
  have := grow_pow_mono (K := K) (p := p) (i := 1) (j := 2) (by omega)
  rwa [pow_one] at this

/-- Water that is divided between the parts. -/
theorem split_divided {L H h θ : F} (hH0 : 0 < H) (h0 : 0 < h) (h1 : h < H) (hθ : 0 ≤ θ) (hL : θ ≤ L) :
    Amount p 3 (γ ^ 2 * η * (2 + H.1)) (L.1 * H.1) ((θ * H / h).1 * h.1 + ((L * H - θ * H) / (H - h)).1 * (H - h).1) := by
  have hη := underflow_pos (K := K) (p := p) (emin := emin)
  have hH : (0 : K) < H.1 := hH0
  have hL0 : (0 : K) ≤ L.1 := hθ.trans hL
  have hsz : (H - h).1 + h.1 ≤ γ * H.1 := by
    have := (le_abs_self _).trans (split_thick h0 h1).size
    rw [pow_one, add_zero] at this
    linarith
  have ax : Amount p 1 η (L.1 * H.1) (L * H).1 :=
    ((Amount.refl (p := p) (mul_nonneg hL0 hH.le)).rnd (emin := emin)).weaken le_rfl (by simp)
  have hle : θ * H ≤ L * H := Rounded.mul_mono_right hH0.le hL
  have hle' : (θ * H).1 ≤ (L * H).1 := hle
  have hn : 0 ≤ θ * H := Rounded.mul_nonneg hθ hH0.le
  have hn' : (0 : K) ≤ (θ * H).1 := hn
  have b1 : Amount p 1 (η * h.1) (θ * H).1 ((θ * H / h).1 * h.1) := (quot_amount (Amount.refl (p := p) hn') h0).weaken le_rfl (by simp)
  have b0 : Amount p 1 0 ((L * H).1 - (θ * H).1) (L * H - θ * H).1 :=
    ((Amount.refl (p := p) (sub_nonneg.2 hle')).rnd_sub (Fl.kept (L * H)) (Fl.kept (θ * H))).weaken le_rfl (by simp)
  have b2 : Amount p 2 (η * (H - h).1) ((L * H).1 - (θ * H).1) (((L * H - θ * H) / (H - h)).1 * (H - h).1) :=
    (quot_amount b0 (sub_pos_fl h1)).weaken le_rfl (by simp)
  have b3 := (b1.weaken (show 1 ≤ 2 by omega) le_rfl).add b2
  rw [add_sub_cancel] at b3
  refine (Amount.trans ax b3).weaken (by omega) ?_
  have k1 : η * ((H - h).1 + h.1) ≤ η * (γ ^ 2 * H.1) :=
    mul_le_mul_of_nonneg_left (hsz.trans (mul_le_mul_of_nonneg_right grow_sq hH.le)) hη.le
  have k2 : 0 ≤ γ ^ 2 * η := (mul_pos (pow_pos grow_pos _) hη).le
  linarith

/-- Water that stays in the upper part. -/
theorem split_kept {L H h : F} (hH0 : 0 < H) (h0 : 0 < h) (h1 : h < H) (hL : 0 ≤ L) :
    Amount p 3 (γ ^ 2 * η * (2 + H.1)) (L.1 * H.1) ((L * H / h).1 * h.1) := by
  have hη := underflow_pos (K := K) (p := p) (emin := emin)
  have hH : (0 : K) < H.1 := hH0
  have h1' : h.1 < H.1 := h1
  have ax : Amount p 1 η (L.1 * H.1) (L * H).1 :=
    ((Amount.refl (p := p) (mul_nonneg (show (0 : K) ≤ L.1 from hL) hH.le)).rnd (emin := emin)).weaken le_rfl (by simp)
  refine (quot_amount ax h0).weaken (by omega) ?_
  have k0 : H.1 ≤ γ ^ 2 * H.1 := by
    have := mul_le_mul_of_nonneg_right (grow_pow_one (K := K) (p := p) 2) hH.le
    rwa [one_mul] at this
  have k1 : η * h.1 ≤ η * (γ ^ 2 * H.1) := mul_le_mul_of_nonneg_left (by linarith) hη.le
  have k2 : γ * η ≤ γ ^ 2 * η := mul_le_mul_of_nonneg_right grow_sq hη.le
  have k3 : 0 ≤ γ ^ 2 * η := (mul_pos (pow_pos grow_pos _) hη).le
  linarith

theorem split_change {a x y : Node F} {h θ : F} (ha : SolidLayer a) (h0 : 0 < h) (h1 : h < a.height) (hθ : a.irreducibleWaterContent = .ok θ)
    (x1 : x.height = h) (x2 : x.iceFraction = a.iceFraction)
    (x3 : x.lwc = (if 0 < a.lwc - θ then θ * a.height else a.lwc * a.height) / h)
    (y1 : y.height = a.height - h) (y2 : y.iceFraction = a.iceFraction)
    (y3 : y.lwc = (if 0 < a.lwc - θ then a.lwc * a.height - θ * a.height else 0) / (a.height - h)) :
    SmallChange [a] [x, y] ∧ SolidLayer x ∧ SolidLayer y := by
  have hη := underflow_pos (K := K) (p := p) (emin := emin)
  have hy : 0 < a.height - h := sub_pos_fl h1
  have hθ0 : 0 ≤ θ := irr_nn ha.ice hθ
  have hc : (0 : F) < a.lwc - θ → θ ≤ a.lwc := fun h2 => by
    by_contra h3
    exact absurd (Rounded.sub_nonpos (not_le.1 h3).le) (not_le.2 h2)
  have e1 : ∀ f : Node F → K, exactTotal f [a] = f a := fun f => by simp
  have e2 : ∀ f : Node F → K, exactTotal f [x, y] = f x + f y := fun f => by simp
  refine ⟨⟨?_, ?_, ?_⟩, ⟨x1 ▸ h0, x2 ▸ ha.ice, ?_⟩, ⟨y1 ▸ hy, y2 ▸ ha.ice, ?_⟩⟩
  · rw [e1, e2]; unfold thickOf; rw [x1, y1]; exact split_thick h0 h1
  · rw [e1, e2, e1]; unfold thickOf Cosipy.waterOf; rw [x1, y1, x3, y3]
    by_cases hcc : (0 : F) < a.lwc - θ
    · rw [if_pos hcc, if_pos hcc]
      exact split_divided ha.thick h0 h1 hθ0 (hc hcc)
    · rw [if_neg hcc, if_neg hcc, Rounded.zero_div]
      have e0 : (0 : F).1 = 0 := rfl
      rw [e0, zero_mul, add_zero]
      exact split_kept ha.thick h0 h1 ha.water
  · rw [e1, e2, e1]; unfold thickOf Cosipy.iceOf; rw [x1, y1, x2, y2]
    have a1 := (split_thick h0 h1).scale (show (0 : K) ≤ a.iceFraction.1 from ha.ice)
    rw [zero_mul, mul_comm, add_mul, mul_comm h.1, mul_comm (a.height - h).1] at a1
    refine a1.weaken (by omega) ?_
    have hH : (0 : K) < a.height.1 := ha.thick
    have := pow_pos (grow_pos (K := K) (p := p)) 2
    positivity
  · rw [x3]
    refine Rounded.div_nonneg ?_ h0.le
    split_ifs
    · exact Rounded.mul_nonneg hθ0 ha.thick.le
    · exact Rounded.mul_nonneg ha.water ha.thick.le
  · rw [y3]
    refine Rounded.div_nonneg ?_ hy.le
    split_ifs with hcc
    · exact Rounded.sub_nonneg (Rounded.mul_mono_right ha.thick.le (hc hcc))
    · exact le_rfl

theorem correctSplit_change {gr gr' : Grid F} {c : Consts F} {i : Int} {h : F} (hi : 0 ≤ i) (hs : ∀ n ∈ gr.nodes, SolidLayer n) (h0 : 0 < h)
    (hh : Grid.correctLayerSplit c i h gr = .ok gr') :
    gr' = gr ∨ (SmallChange gr.nodes gr'.nodes ∧ (∀ n ∈ gr'.nodes, SolidLayer n) ∧ gr'.nodes.length = gr.nodes.length + 1) := by
  rcases split_parts hi hh with h | ⟨pre, a, post, θ, e1, h1, hθ, e2⟩
  · exact .inl h
  · right
    rw [e1] at hs
    generalize hx : ({ a with height := h, lwc := (if 0 < a.lwc - θ then θ * a.height else a.lwc * a.height) / h } : Node F) = x at e2
    generalize hy : (⟨a.height - h, a.temperature, (if 0 < a.lwc - θ then a.lwc * a.height - θ * a.height else 0) / (a.height - h),
      a.iceFraction, 0⟩ : Node F) = y at e2
    obtain ⟨k1, k2, k3⟩ := split_change (x := x) (y := y) (hs a (by simp)) h0 h1 hθ (by rw [← hx]) (by rw [← hx]) (by rw [← hx])
      (by rw [← hy]) (by rw [← hy]) (by rw [← hy])
    rw [e1, e2]
    refine ⟨SmallChange.local (rest := pre ++ post) (by simp)
      (by simpa using List.perm_append_comm_assoc pre [x, y] post) (fun n hn => hs n (by
      rcases List.mem_append.1 hn with h | h <;> simp [h])) k1, ?_, by simp; omega⟩
    intro n hn
    rcases List.mem_append.1 hn with h | h
    · exact hs n (by simp [h])
    · rcases List.mem_cons.1 h with rfl | h
      · exact k2
      · rcases List.mem_cons.1 h with rfl | h
        · exact k3
        · exact hs n (by simp [h])

/-! ## Many changes -/

/-- `ms` is what at most `k` merges and splits leave of `ns`. -/
structure Drift (k : ℕ) (ns ms : List (Node F)) : Prop where
  solid : ∀ n ∈ ms, SolidLayer n
  thick : Amount p k 0 (exactTotal thickOf ns) (exactTotal thickOf ms)
  water : Amount p (3 * k) (k * γ ^ (4 * k) * η * (2 + exactTotal thickOf ns)) (exactTotal waterOf ns) (exactTotal waterOf ms)
  ice : Amount p (3 * k) (k * γ ^ (4 * k) * η * (2 + exactTotal thickOf ns)) (exactTotal iceOf ns) (exactTotal iceOf ms)

theorem Drift.refl {ns : List (Node F)} (h : ∀ n ∈ ns, SolidLayer n) : Drift 0 ns ns :=
  ⟨h, Amount.refl (exactTotal_nonneg _ fun n hn => (h n hn).thick.le),
    (Amount.refl (exactTotal_nonneg _ fun n hn => (h n hn).waterOf)).weaken le_rfl (by simp),
    (Amount.refl (exactTotal_nonneg _ fun n hn => (h n hn).iceOf)).weaken le_rfl (by simp)⟩

theorem Drift.step {k : ℕ} {ns ms ls : List (Node F)} (h : Drift k ns ms) (hc : SmallChange ms ls) (hs : ∀ n ∈ ls, SolidLayer n) :
    Drift (k + 1) ns ls := by
  have hη := underflow_pos (K := K) (p := p) (emin := emin)
  have hT : 0 ≤ exactTotal thickOf ns := h.thick.nonneg
  have hms : exactTotal thickOf ms ≤ γ ^ k * exactTotal thickOf ns := by
    have := (le_abs_self _).trans h.thick.size
    rwa [add_zero] at this
  have hsl : γ ^ 3 * (k * γ ^ (4 * k) * η * (2 + exactTotal thickOf ns)) + γ ^ 2 * η * (2 + exactTotal thickOf ms) ≤
      ((k + 1 : ℕ) : K) * γ ^ (4 * (k + 1)) * η * (2 + exactTotal thickOf ns) := by
    have hA : 0 ≤ η * (2 + exactTotal thickOf ns) := mul_nonneg hη.le (by linarith)
    have k1 : γ ^ 3 * γ ^ (4 * k) ≤ γ ^ (4 * (k + 1)) := by rw [← pow_add]; exact grow_pow_mono (by omega)
    have k2 : γ ^ 2 * γ ^ k ≤ γ ^ (4 * (k + 1)) := by rw [← pow_add]; exact grow_pow_mono (by omega)
    have m1 := mul_le_mul_of_nonneg_right k1 (mul_nonneg (Nat.cast_nonneg (α := K) k) hA)
    have m2 := mul_le_mul_of_nonneg_right k2 hA
    have m3 : 2 + exactTotal thickOf ms ≤ γ ^ k * (2 + exactTotal thickOf ns) := by
      have := grow_pow_one (K := K) (p := p) k
      linarith
    have m4 := mul_le_mul_of_nonneg_left m3 (mul_pos (pow_pos (grow_pos (K := K) (p := p)) 2) hη).le
    push_cast
    linarith
  exact ⟨hs, (h.thick.trans hc.thick).weaken le_rfl (by simp), (h.water.trans hc.water).weaken (by omega) hsl,
    (h.ice.trans hc.ice).weaken (by omega) hsl⟩

/-- Merges and splits of `correct_layer`: at most one split. -/
theorem correctLayer_drift {ns : List (Node F)} {k : ℕ} {gr gr' : Grid F} {fuel : Nat} {c : Consts F} {i : Int} {h : F} (hi : 0 ≤ i)
    (hd : Drift k ns gr.nodes) (h0 : 0 < h) (hh : gr.correctLayer fuel c i h = .ok gr') :
    ∃ k', Drift k' ns gr'.nodes ∧ k' + gr'.nodes.length ≤ k + gr.nodes.length + 2 := by
  unfold Grid.correctLayer at hh
  rw [bind_eq_ok] at hh; obtain ⟨g1, h1, hh⟩ := hh
  obtain ⟨k1, d1, l1⟩ := (whileM_ind h1 (fun g1 : Grid F => ∃ k', Drift k' ns g1.nodes ∧ k' + g1.nodes.length ≤ k + gr.nodes.length)
    ⟨k, hd, le_rfl⟩ (by
    rintro s s' ⟨k', hk, hl⟩ hb
    have hlen := correctLayerPass_length hb
    refine ⟨k' + 1, ?_, by omega⟩
    unfold Grid.correctLayerPass at hb
    rw [bind_eq_ok] at hb; obtain ⟨a, _, hb⟩ := hb
    split_ifs at hb
    · rw [bind_eq_ok] at hb; obtain ⟨b, _, hb⟩ := hb
      split_ifs at hb
      · rw [bind_eq_ok] at hb; obtain ⟨g2, hm, hb⟩ := hb
        rw [pure_eq_ok] at hb; cases hb
        obtain ⟨c1, c2⟩ := mergeNodes_change (.inl hi) hk.solid hm
        exact hk.step c1 c2
      · rw [bind_eq_ok] at hb; obtain ⟨g2, hm, hb⟩ := hb
        rw [pure_eq_ok] at hb; cases hb
        obtain ⟨c1, c2⟩ := mergeNodes_change (.inl hi) hk.solid hm
        exact hk.step c1 c2
      · cases hb
    · cases hb)).1
  rcases correctSplit_change hi d1.solid h0 hh with e | ⟨c1, c2, c3⟩
  · subst e; exact ⟨k1, d1, by omega⟩
  · exact ⟨k1 + 1, d1.step c1 c2, by omega⟩

/-- State of the loops of `log_profile`. -/
structure LogDrift (c : Consts F) (H : F) (ns : List (Node F)) (B : ℕ) (s : Grid.LogState F) : Prop where
  wf : s.g.WF
  idx : 0 ≤ s.idx
  last : c.firstLayerHeight ≤ s.last
  rest : s.hrest ≤ H
  drift : s.g.nodes = [] ∨ ∃ k, Drift k ns s.g.nodes ∧ k + s.g.nodes.length + 2 * halfLayers c.firstLayerHeight s.hrest ≤ B

theorem snowPass_drift {c : Consts F} {H : F} {ns : List (Node F)} {B fuel : ℕ} {s s' : Grid.LogState F} (h0 : 0 < c.firstLayerHeight)
    (h1 : 1 ≤ c.layerStretching) (hn : NotNegligible c.firstLayerHeight H) (hs : LogDrift c H ns B s)
    (hb : Grid.logSnowPass fuel c s = .ok (some s')) : LogDrift c H ns B s' := by
  have hw' := hs.wf.logSnowPass hb
  have hlt := logSnowPass_lt hs.wf hb
  obtain ⟨e, hcase⟩ := logSnow_cases hb
  rcases hs.drift with hnil | ⟨k, hk, hB⟩
  · exfalso; rw [hnil] at hlt; have := hs.idx; simp at hlt; omega
  have hi' : 0 ≤ s'.idx := by have := hs.idx; omega
  rcases hcase with ⟨hle, hc, hr, hla⟩ | ⟨_, hpos, hc, hr, hla⟩ | ⟨_, _, hc, hr, hla⟩
  · obtain ⟨h3, h5⟩ := halfLayers_drop h0 hs.last hle hs.rest hn
    obtain ⟨k', hk', hl'⟩ := correctLayer_drift hs.idx hk (h0.trans_le hs.last) hc
    refine ⟨hw', hi', by rw [hla]; exact stretch_ge h0 h1 hs.last, by rw [hr]; exact h5, .inr ⟨k', hk', ?_⟩⟩
    rw [hr]; omega
  · obtain ⟨c1, c2⟩ := mergeNodes_change (.inl (by omega)) hk.solid hc
    have := mergeNodes_length hc
    refine ⟨hw', hi', by rw [hla]; exact hs.last, by rw [hr]; exact hs.rest, .inr ⟨k + 1, hk.step c1 c2, ?_⟩⟩
    rw [hr]; omega
  · refine ⟨hw', hi', by rw [hla]; exact hs.last, by rw [hr]; exact hs.rest, .inr ⟨k, by rw [hc]; exact hk, ?_⟩⟩
    rw [hr, hc]; exact hB

theorem icePass_drift {c : Consts F} {H : F} {ns : List (Node F)} {B fuel : ℕ} {s s' : Grid.LogState F} (h0 : 0 < c.firstLayerHeight)
    (h1 : 1 ≤ c.layerStretching) (hn : NotNegligible c.firstLayerHeight H) (hs : LogDrift c H ns B s)
    (hb : Grid.logIcePass fuel c s = .ok (some s')) : LogDrift c H ns B s' := by
  have hw' := hs.wf.logIcePass hb
  obtain ⟨hlt, e, hcase⟩ := logIce_cases hb
  rw [hs.wf] at hlt
  rcases hs.drift with hnil | ⟨k, hk, hB⟩
  · exfalso; rw [hnil] at hlt; have := hs.idx; simp at hlt; omega
  have hi' : 0 ≤ s'.idx := by have := hs.idx; omega
  rcases hcase with ⟨hle, hc, hr, hla⟩ | ⟨_, hc, hr, hla⟩
  · obtain ⟨h3, h5⟩ := halfLayers_drop h0 hs.last hle hs.rest hn
    obtain ⟨k', hk', hl'⟩ := correctLayer_drift hs.idx hk (h0.trans_le hs.last) hc
    refine ⟨hw', hi', by rw [hla]; exact stretch_ge h0 h1 hs.last, by rw [hr]; exact h5, .inr ⟨k', hk', ?_⟩⟩
    rw [hr]; omega
  · have hlen := mergeNodes_length hc
    refine ⟨hw', hi', by rw [hla]; exact hs.last, by rw [hr]; exact hs.rest, ?_⟩
    by_cases h2 : 2 ≤ s.g.nodes.length
    · right
      have hor : 0 ≤ s.idx - 1 ∨ (s.idx - 1 = -1 ∧ 2 ≤ s.g.nodes.length) := by
        have := hs.idx
        rcases Int.lt_or_le 0 s.idx with h | h
        · left; omega
        · right; exact ⟨by omega, h2⟩
      obtain ⟨c1, c2⟩ := mergeNodes_change hor hk.solid hc
      exact ⟨k + 1, hk.step c1 c2, by rw [hr]; omega⟩
    · left
      exact List.eq_nil_of_length_eq_zero (by omega)

/-- The rounded sum of the thicknesses. -/
theorem heightSum_amount : ∀ (ns : List (Node F)), (∀ n ∈ ns, SolidLayer n) →
    Amount p ns.length 0 (exactTotal thickOf ns) (pySum (ns.map Node.height)).1 := by
  have key : ∀ (ns : List (Node F)) (acc : F), 0 ≤ acc → (∀ n ∈ ns, SolidLayer n) →
      Amount p ns.length 0 (acc.1 + exactTotal thickOf ns) ((ns.map Node.height).foldl (· + ·) acc).1 := by
    intro ns
    induction ns with
    | nil => intro acc ha _; simpa using Amount.refl (p := p) (show (0 : K) ≤ acc.1 from ha)
    | cons n ns ih =>
      intro acc ha hs
      have hn := hs n (by simp)
      have hs' : ∀ m ∈ ns, SolidLayer m := fun m hm => hs m (by simp [hm])
      have a1 := ((Amount.refl (p := p) (show (0 : K) ≤ acc.1 from ha)).add (Amount.refl (p := p) (show (0 : K) ≤ n.height.1 from
        hn.thick.le))).rnd_add (Fl.kept acc) (Fl.kept n.height)
      have a2 := a1.add ((Amount.refl (p := p) (exactTotal_nonneg thickOf (ns := ns) fun m hm => (hs' m hm).thick.le)).weaken (Nat.zero_le 1) le_rfl)
      have a3 := a2.trans (ih (acc + n.height) (Rounded.add_nonneg ha hn.thick.le) hs')
      rw [exactTotal_cons, ← add_assoc, List.length_cons]
      exact a3.weaken (by omega) (by simp)
  intro ns hs
  have := key ns 0 le_rfl hs
  have e0 : (0 : F).1 = 0 := rfl
  rw [e0, zero_add] at this
  exact this

theorem heightSum_nonneg (ns : List (Node F)) (hs : ∀ n ∈ ns, SolidLayer n) : 0 ≤ pySum (ns.map Node.height) := by
  have key : ∀ (ns : List (Node F)) (acc : F), 0 ≤ acc → (∀ n ∈ ns, SolidLayer n) → 0 ≤ (ns.map Node.height).foldl (· + ·) acc := by
    intro ns
    induction ns with
    | nil => exact fun acc ha _ => ha
    | cons n ns ih => exact fun acc ha hs => ih _ (Rounded.add_nonneg ha (hs n (by simp)).thick.le) fun m hm => hs m (by simp [hm])
  exact key ns 0 le_rfl hs

theorem exactTotal_take {ns : List (Node F)} (hs : ∀ n ∈ ns, SolidLayer n) (j : ℕ) :
    exactTotal thickOf (ns.take j) ≤ exactTotal thickOf ns := by
  conv_rhs => rw [← List.take_append_drop j ns, exactTotal_append]
  have : 0 ≤ exactTotal thickOf (ns.drop j) := exactTotal_nonneg _ fun n hn => (hs n (List.mem_of_mem_drop hn)).thick.le
  linarith

theorem halfLayers_le {f h : F} (hf : 0 < f) (hh : 0 ≤ h.1) {x : K} (hx : h.1 ≤ x) : (halfLayers f h : K) ≤ 2 * (x / f.1) := by
  have hf' : (0 : K) < f.1 := hf
  unfold halfLayers
  refine (Nat.floor_le (by positivity)).trans ?_
  rw [show 2 * (x / f.1) = x / (f.1 / 2) by field_simp]
  exact div_le_div_of_nonneg_right hx (by positivity)

/-- **C129, logarithmic remeshing** in binary floating point, if the first layer is not too thin and the layers not too many for the format: water, ice
and thickness of the column are conserved up to three roundings (one for the thickness) for each of at most `n + 10 T / f` merges and splits, where
`n` is the number of layers, `T` the thickness of the column and `f` that of the first layer. (A column of a single layer can be lost: C05.) -/
theorem C129_log {c : Consts F} {gr gr' : Grid F} {fuel : ℕ} (hw : gr.WF) (hs : ∀ n ∈ gr.nodes, SolidLayer n) (h0 : 0 < c.firstLayerHeight)
    (h1 : 1 ≤ c.layerStretching) (hN : 8 * (gr.nodes.length + 5 * (exactTotal thickOf gr.nodes / c.firstLayerHeight.1)) * u ≤ 1)
    (h : gr.logProfile fuel c = .ok gr') :
    gr'.nodes = [] ∨ ∃ k : ℕ, (k : K) ≤ gr.nodes.length + 10 * (exactTotal thickOf gr.nodes / c.firstLayerHeight.1) ∧ Drift k gr.nodes gr'.nodes := by
  have hu := unit_pos (K := K) (p := p)
  have hf : (0 : K) < c.firstLayerHeight.1 := h0
  have hT : 0 ≤ exactTotal thickOf gr.nodes := exactTotal_nonneg _ fun n hn => (hs n hn).thick.le
  have hR : 0 ≤ exactTotal thickOf gr.nodes / c.firstLayerHeight.1 := div_nonneg hT hf.le
  have hRT : exactTotal thickOf gr.nodes = exactTotal thickOf gr.nodes / c.firstLayerHeight.1 * c.firstLayerHeight.1 := by field_simp
  generalize hTe : exactTotal thickOf gr.nodes = T at *
  generalize hRe : T / c.firstLayerHeight.1 = R at *
  have hn0 : (0 : K) ≤ gr.nodes.length := Nat.cast_nonneg _
  have hgrow : ∀ j : ℕ, (j : K) ≤ gr.nodes.length + 5 * R → γ ^ j ≤ 5 / 4 := by
    intro j hj
    have h2 : 2 * (j : K) * u ≤ 1 / 4 := by
      have := mul_le_mul_of_nonneg_right hj hu.le
      linarith
    have := grow_pow_le (K := K) (p := p) (i := j) (by linarith)
    linarith
  have hneg : ∀ H : F, H.1 ≤ 5 / 4 * T → NotNegligible c.firstLayerHeight H := by
    intro H hH
    unfold NotNegligible
    have h2 : u * R ≤ 1 / 40 := by
      have := mul_nonneg hn0 hu.le
      linarith
    have h3 : u * H.1 ≤ u * (5 / 4 * T) := mul_le_mul_of_nonneg_left hH hu.le
    have h4 : u * (5 / 4 * T) = 5 / 4 * (u * R) * c.firstLayerHeight.1 := by rw [hRT]; ring
    have h5 : 5 / 4 * (u * R) * c.firstLayerHeight.1 ≤ 5 / 4 * (1 / 40) * c.firstLayerHeight.1 :=
      mul_le_mul_of_nonneg_right (mul_le_mul_of_nonneg_left h2 (by norm_num)) hf.le
    linarith
  have hhalf : ∀ H : F, 0 ≤ H.1 → H.1 ≤ 5 / 4 * T → (halfLayers c.firstLayerHeight H : K) ≤ 5 / 2 * R := by
    intro H hH0 hH
    have := halfLayers_le h0 hH0 hH
    rw [mul_div_assoc, hRe] at this
    linarith
  unfold Grid.logProfile at h
  rw [Grid.getTotalSnowheight_eq hw, ok_bind, bind_eq_ok] at h
  obtain ⟨s, hl, h⟩ := h
  -- the snow loop
  have hs1 : ∀ n ∈ gr.nodes.take (Grid.nSnow c gr.nodes), SolidLayer n := fun n hn => hs n (List.mem_of_mem_take hn)
  have a1 := heightSum_amount _ hs1
  have b1 := (le_abs_self _).trans a1.size
  have t1 := exactTotal_take hs (Grid.nSnow c gr.nodes)
  have z1 : (0 : K) ≤ (pySum ((gr.nodes.take (Grid.nSnow c gr.nodes)).map Node.height)).1 := heightSum_nonneg _ hs1
  have u1 : (pySum ((gr.nodes.take (Grid.nSnow c gr.nodes)).map Node.height)).1 ≤ 5 / 4 * T := by
    rw [add_zero] at b1
    refine b1.trans (mul_le_mul (hgrow _ ?_) (by rw [← hTe]; exact t1) a1.nonneg (by norm_num))
    have : ((gr.nodes.take (Grid.nSnow c gr.nodes)).length : K) ≤ gr.nodes.length := by
      exact_mod_cast List.length_take_le' _ _
    linarith
  generalize pySum ((gr.nodes.take (Grid.nSnow c gr.nodes)).map Node.height) = H1 at *
  have m1 := hhalf H1 z1 u1
  have d1 := (whileM_ind hl (LogDrift c H1 gr.nodes (gr.nodes.length + 2 * halfLayers c.firstLayerHeight H1))
    ⟨hw, le_rfl, le_rfl, le_rfl, .inr ⟨0, Drift.refl hs, by simp⟩⟩ fun s s' i => snowPass_drift h0 h1 (hneg H1 u1) i).1
  simp only [Grid.getTotalSnowheight_eq d1.wf, Grid.getTotalHeight_eq d1.wf, Grid.getNumberSnowLayers_eq d1.wf, ok_bind, bind_eq_ok] at h
  obtain ⟨s2, hl2, h⟩ := h
  rw [pure_eq_ok] at h; subst h
  rcases d1.drift with hnil | ⟨k1, dr1, bd1⟩
  · left
    have hstop : Grid.logIcePass fuel c ⟨s.g, pySum (s.g.nodes.map Node.height) -
        pySum ((s.g.nodes.take (Grid.nSnow c s.g.nodes)).map Node.height), s.last, (Grid.nSnow c s.g.nodes : Int)⟩ = .ok none := by
      unfold Grid.logIcePass
      rw [if_neg]; · rfl
      rw [d1.wf, hnil]; simp
    cases fuel with
    | zero => cases hl2
    | succ fuel =>
      rw [whileM, hstop] at hl2
      cases hl2
      exact hnil
  -- the glacier loop
  have bdK : (k1 : K) + s.g.nodes.length ≤ gr.nodes.length + 5 * R := by
    have : ((k1 + s.g.nodes.length : ℕ) : K) ≤ ((gr.nodes.length + 2 * halfLayers c.firstLayerHeight H1 : ℕ) : K) := by
      exact_mod_cast (by omega)
    push_cast at this
    linarith
  have a2 := heightSum_amount _ dr1.solid
  have b2 := (le_abs_self _).trans (dr1.thick.trans a2).size
  have u2 : (pySum (s.g.nodes.map Node.height)).1 ≤ 5 / 4 * T := by
    rw [mul_zero, add_zero, add_zero, hTe] at b2
    refine b2.trans (mul_le_mul_of_nonneg_right (hgrow _ ?_) hT)
    push_cast; exact bdK
  have hs2 : ∀ n ∈ s.g.nodes.take (Grid.nSnow c s.g.nodes), SolidLayer n := fun n hn => dr1.solid n (List.mem_of_mem_take hn)
  have z2 : (0 : F) ≤ pySum ((s.g.nodes.take (Grid.nSnow c s.g.nodes)).map Node.height) := heightSum_nonneg _ hs2
  have u3 : (pySum (s.g.nodes.map Node.height) - pySum ((s.g.nodes.take (Grid.nSnow c s.g.nodes)).map Node.height)).1 ≤ 5 / 4 * T := by
    have : pySum (s.g.nodes.map Node.height) - pySum ((s.g.nodes.take (Grid.nSnow c s.g.nodes)).map Node.height) ≤
      pySum (s.g.nodes.map Node.height) := Rounded.sub_le z2
    have h' : (pySum (s.g.nodes.map Node.height) - pySum ((s.g.nodes.take (Grid.nSnow c s.g.nodes)).map Node.height)).1 ≤
      (pySum (s.g.nodes.map Node.height)).1 := this
    exact h'.trans u2
  generalize pySum (s.g.nodes.map Node.height) - pySum ((s.g.nodes.take (Grid.nSnow c s.g.nodes)).map Node.height) = H2 at *
  have d2 := (whileM_ind hl2 (LogDrift c H2 gr.nodes (k1 + s.g.nodes.length + 2 * halfLayers c.firstLayerHeight H2))
    ⟨d1.wf, Int.natCast_nonneg _, d1.last, le_rfl, .inr ⟨k1, dr1, le_rfl⟩⟩ fun s s' i => icePass_drift h0 h1 (hneg H2 u3) i).1
  rcases d2.drift with hnil | ⟨k, dr, bd⟩
  · exact .inl hnil
  · refine .inr ⟨k, ?_, dr⟩
    have m2 : (halfLayers c.firstLayerHeight H2 : K) ≤ 5 / 2 * R := by
      by_cases hz : 0 ≤ H2.1
      · exact hhalf H2 hz u3
      · have : halfLayers c.firstLayerHeight H2 = 0 := by
          unfold halfLayers
          exact Nat.floor_of_nonpos (div_nonpos_of_nonpos_of_nonneg (not_le.1 hz).le (by linarith))
        rw [this]; push_cast; linarith
    have : ((k : ℕ) : K) ≤ ((k1 + s.g.nodes.length + 2 * halfLayers c.firstLayerHeight H2 : ℕ) : K) := by
      exact_mod_cast (by omega)
    push_cast at this
    linarith

/-- **C129, `update_grid()`** with logarithmic remeshing. `ms` are the layers after remeshing, from which a too thin top layer is then removed. -/
theorem C129_update {c : Consts F} {gr gr' : Grid F} {fuel : ℕ} (hm : c.remeshMethod = .logProfile) (hw : gr.WF)
    (hs : ∀ n ∈ gr.nodes, SolidLayer n) (h0 : 0 < c.firstLayerHeight) (h1 : 1 ≤ c.layerStretching)
    (hN : 8 * (gr.nodes.length + 5 * (exactTotal thickOf gr.nodes / c.firstLayerHeight.1)) * u ≤ 1) (h : gr.updateGrid fuel c = .ok gr') :
    ∃ (k : ℕ) (ms : List (Node F)), (k : K) ≤ gr.nodes.length + 10 * (exactTotal thickOf gr.nodes / c.firstLayerHeight.1) ∧
      (ms = gr'.nodes ∨ ∃ top : Node F, top.height < c.minimumSnowLayerHeight ∧ SolidLayer top ∧ ms = top :: gr'.nodes) ∧
      |exactTotal waterOf ms - exactTotal waterOf gr.nodes| ≤
        (γ ^ (3 * k) - 1) * exactTotal waterOf gr.nodes + k * γ ^ (4 * k) * η * (2 + exactTotal thickOf gr.nodes) ∧
      |exactTotal iceOf ms - exactTotal iceOf gr.nodes| ≤
        (γ ^ (3 * k) - 1) * exactTotal iceOf gr.nodes + k * γ ^ (4 * k) * η * (2 + exactTotal thickOf gr.nodes) ∧
      |exactTotal thickOf ms - exactTotal thickOf gr.nodes| ≤ (γ ^ k - 1) * exactTotal thickOf gr.nodes ∧
      ∀ n ∈ gr'.nodes, SolidLayer n := by
  unfold Grid.updateGrid at h
  simp only [bind_eq_ok] at h
  obtain ⟨g1, hr, a, ha, h⟩ := h
  unfold Grid.remesh at hr
  rw [hm] at hr
  have hne : g1.nodes ≠ [] := by
    intro e
    unfold Grid.node at ha
    rw [e] at ha
    simp [pyGet, normIdx] at ha
  obtain ⟨b, post, hd⟩ := List.exists_cons_of_ne_nil hne
  have hab : b = a := by
    unfold Grid.node at ha
    rw [hd] at ha
    simpa [pyGet, normIdx] using ha
  subst hab
  rcases C129_log hw hs h0 h1 hN hr with e | ⟨k, hk, dr⟩
  · rw [e] at hd; cases hd
  have ht := dr.thick.err
  rw [add_zero] at ht
  split_ifs at h with hc
  · obtain ⟨j, hj, rfl⟩ := (Grid.removeNode_single (by rw [hd]; simp)).1 h
    obtain ⟨hj1, _⟩ := normIdx_eq_some_nonneg le_rfl hj
    have : j = 0 := by omega
    subst this
    refine ⟨k, g1.nodes, hk, .inr ⟨b, hc, dr.solid b (by rw [hd]; simp), by simp [hd]⟩, dr.water.err, dr.ice.err, ht, fun n hn => dr.solid n (List.mem_of_mem_eraseIdx hn)⟩
  · rw [pure_eq_ok] at h; subst h
    exact ⟨k, g1.nodes, hk, .inl rfl, dr.water.err, dr.ice.err, ht, dr.solid⟩

end

/-! ## In double precision -/

section
variable {K : Type} [Field K] [LinearOrder K] [IsStrictOrderedRing K] [FloorRing K]

theorem binary64_drift {k : ℕ} {x T : K} (hk : (k : K) ≤ 1000000) (hx : 0 ≤ x) (hT : 0 ≤ T) (hT' : T ≤ 1000000) :
    (grow K 52 ^ k - 1) * x ≤ 1e-9 * x ∧
    (grow K 52 ^ (3 * k) - 1) * x + k * grow K 52 ^ (4 * k) * underflowUnit K 52 (-1022) * (2 + T) ≤ 1e-9 * x + 2 ^ (-1000 : ℤ) := by
  have hu : unitRoundoff K 52 ≤ 1 / 9 * 1e-15 := by unfold unitRoundoff; norm_num
  have h0 := unit_pos (K := K) (p := 52)
  have hku : (k : K) * unitRoundoff K 52 ≤ 1 / 9 * 1e-9 := by
    refine (mul_le_mul hk hu h0.le (by norm_num)).trans (by norm_num)
  have g3 := grow_pow_le (K := K) (p := 52) (i := 3 * k) (by push_cast; norm_num at hku ⊢; linarith)
  have g4 := grow_pow_le (K := K) (p := 52) (i := 4 * k) (by push_cast; norm_num at hku ⊢; linarith)
  have g1 := grow_pow_mono (K := K) (p := 52) (show k ≤ 3 * k by omega)
  push_cast at g3 g4
  have b3 : grow K 52 ^ (3 * k) - 1 ≤ 1e-9 := by norm_num at hku ⊢; linarith
  have b4 : grow K 52 ^ (4 * k) ≤ 2 := by norm_num at hku ⊢; linarith
  have hη := underflow_pos (K := K) (p := 52) (emin := -1022)
  refine ⟨mul_le_mul_of_nonneg_right (by linarith) hx, add_le_add (mul_le_mul_of_nonneg_right b3 hx) ?_⟩
  have hk0 : (0 : K) ≤ k := Nat.cast_nonneg _
  have e1 : (k : K) * grow K 52 ^ (4 * k) ≤ 1000000 * 2 := mul_le_mul hk b4 (pow_pos grow_pos _).le (by norm_num)
  have e2 : (k : K) * grow K 52 ^ (4 * k) * underflowUnit K 52 (-1022) ≤ 2000000 * underflowUnit K 52 (-1022) :=
    mul_le_mul_of_nonneg_right (by linarith) hη.le
  have e3 : (2 : K) + T ≤ 2000000 := by linarith
  refine (mul_le_mul e2 e3 (by linarith) (by positivity)).trans ?_
  have e4 : (2 : K) ^ (-1000 : ℤ) = 2 ^ (75 : ℕ) * underflowUnit K 52 (-1022) := by
    unfold underflowUnit
    rw [show (2 : K) ^ (75 : ℕ) = 2 ^ (75 : ℤ) by norm_cast, ← zpow_add₀ (two_ne_zero)]
    congr 1
  rw [e4]
  have e5 : (2000000 * 2000000 : K) ≤ 2 ^ (75 : ℕ) := by norm_num
  have := mul_le_mul_of_nonneg_right e5 hη.le
  linarith

/-- **C129 in double precision.** Up to a million merges and splits (a column of 1000 m with a first layer of 1 cm): 10⁻⁹ of the water, of the ice and of
the thickness. -/
theorem C129_update_binary64 {c : Consts (Fl (binary64 K))} {gr gr' : Grid (Fl (binary64 K))} {fuel : ℕ} (hm : c.remeshMethod = .logProfile)
    (hw : gr.WF) (hs : ∀ n ∈ gr.nodes, SolidLayer n) (h0 : 0 < c.firstLayerHeight) (h1 : 1 ≤ c.layerStretching)
    (hN : gr.nodes.length + 10 * (exactTotal thickOf gr.nodes / c.firstLayerHeight.1) ≤ 1000000) (hT : exactTotal thickOf gr.nodes ≤ 1000000)
    (h : gr.updateGrid fuel c = .ok gr') :
    ∃ ms : List (Node (Fl (binary64 K))),
      (ms = gr'.nodes ∨ ∃ top : Node (Fl (binary64 K)), top.height < c.minimumSnowLayerHeight ∧ SolidLayer top ∧ ms = top :: gr'.nodes) ∧
      |exactTotal waterOf ms - exactTotal waterOf gr.nodes| ≤ 1e-9 * exactTotal waterOf gr.nodes + 2 ^ (-1000 : ℤ) ∧
      |exactTotal iceOf ms - exactTotal iceOf gr.nodes| ≤ 1e-9 * exactTotal iceOf gr.nodes + 2 ^ (-1000 : ℤ) ∧
      |exactTotal thickOf ms - exactTotal thickOf gr.nodes| ≤ 1e-9 * exactTotal thickOf gr.nodes  ∧
      ∀ n ∈ gr'.nodes, SolidLayer n := by
  have hT0 : 0 ≤ exactTotal thickOf gr.nodes := exactTotal_nonneg _ fun n hn => (hs n hn).thick.le
  have hR : 0 ≤ exactTotal thickOf gr.nodes / c.firstLayerHeight.1 := div_nonneg hT0 (show (0 : K) < c.firstLayerHeight.1 from h0).le
  have hu : unitRoundoff K 52 ≤ 1 / 9 * 1e-15 := by unfold unitRoundoff; norm_num
  have hu0 := unit_pos (K := K) (p := 52)
  have hN' : 8 * (gr.nodes.length + 5 * (exactTotal thickOf gr.nodes / c.firstLayerHeight.1)) * unitRoundoff K 52 ≤ 1 := by
    have : 8 * (gr.nodes.length + 5 * (exactTotal thickOf gr.nodes / c.firstLayerHeight.1)) ≤ 8000000 := by linarith
    refine (mul_le_mul this hu hu0.le (by norm_num)).trans (by norm_num)
  obtain ⟨k, ms, hk, hms, a1, a2, a3, a4⟩ := C129_update hm hw hs h0 h1 hN' h
  have hk' := hk.trans hN
  exact ⟨ms, hms, a1.trans (binary64_drift hk' (exactTotal_nonneg _ fun n hn => (hs n hn).waterOf) hT0 hT).2,
    a2.trans (binary64_drift hk' (exactTotal_nonneg _ fun n hn => (hs n hn).iceOf) hT0 hT).2, a3.trans (binary64_drift hk' hT0 hT0 hT).1, a4⟩

end

/-! Non-vacuity: a column in double precision that is merged and split; ice, thickness and water change. -/
section
private abbrev V64 := Fl (binary64 ℚ)

private def exCol : Grid V64 :=
  ⟨[⟨0.007, 265, 0.013, 0.3, 0⟩, ⟨0.031, 268, 0.01, 0.43, 0⟩, ⟨0.017, 268, 0.01, 0.47, 0⟩, ⟨0.05, 270, 0, 0.97, 0⟩], 4, 0, 0, 0⟩

private theorem exCol_solid : ∀ n ∈ exCol.nodes, SolidLayer n := by
  have all : ∀ n ∈ exCol.nodes, 0 < n.height ∧ 0 ≤ n.iceFraction ∧ 0 ≤ n.lwc := by unfold exCol; decide +kernel
  exact fun n hn => ⟨(all n hn).1, (all n hn).2.1, (all n hn).2.2⟩

example : (Consts.default V64).remeshMethod = .logProfile ∧ exCol.WF ∧ (∀ n ∈ exCol.nodes, SolidLayer n) ∧
    0 < (Consts.default V64).firstLayerHeight ∧ 1 ≤ (Consts.default V64).layerStretching ∧
    exCol.nodes.length + 10 * (exactTotal thickOf exCol.nodes / (Consts.default V64).firstLayerHeight.1) ≤ 1000000 ∧
    exactTotal thickOf exCol.nodes ≤ 1000000 :=
  ⟨rfl, rfl, exCol_solid, by decide +kernel, by decide +kernel, by decide +kernel, by decide +kernel⟩

example : ((exCol.updateGrid 99 (Consts.default V64)).toOption.map fun r => (r.nodes.length,
    decide (exactTotal iceOf r.nodes = exactTotal iceOf exCol.nodes), decide (exactTotal thickOf r.nodes = exactTotal thickOf exCol.nodes),
    decide (exactTotal waterOf r.nodes = exactTotal waterOf exCol.nodes))) = some (6, false, false, false) := by decide +kernel

end
end Cosipy
