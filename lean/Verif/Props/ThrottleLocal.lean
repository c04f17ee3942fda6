import Verif.Model.ThrottleLocal
import Verif.Props.EngineDeckPack
import Verif.Props.EngineDeck

/-!
# Properties of throttles normalised per flight condition (C132)
-/

namespace Verif.ThrottleLocal

/-- A line of the packed column begins with the points of its flight condition. -/
theorem packedRow_take (ws : List PackWrite) (dmax : ℕ) (f : DeckPt → ℚ) (M A : ℕ) (b : List DeckPt) (hb : b.length ≤ dmax)
    (h : ∀ D p, ((M, A, D), p) ∈ ws ↔ b[D]? = some p) : (packedRow ws dmax f M A).take b.length = b.map f := by
  apply List.ext_getElem?
  intro D
  by_cases hD : D < b.length
  · have hD' : D < dmax := lt_of_lt_of_le hD hb
    rw [List.getElem?_take_of_lt hD, packedRow, List.getElem?_map, List.getElem?_range hD', List.getElem?_map]
    obtain ⟨p, hp⟩ : ∃ p, b[D]? = some p := ⟨b[D], List.getElem?_eq_getElem hD⟩
    rw [hp]
    have hm : ((M, A, D), p) ∈ ws := (h D p).mpr hp
    cases hf : ws.find? (fun w => decide (w.1 = (M, A, D))) with
    | none =>
      have := List.find?_eq_none.mp hf _ hm
      simp at this
    | some w =>
      have h1 : w.1 = (M, A, D) := by simpa using List.find?_some hf
      have h2 : w ∈ ws := List.mem_of_find?_eq_some hf
      have h3 : ((M, A, D), w.2) ∈ ws := by rw [← h1]; exact h2
      have h4 := (h D w.2).mp h3
      rw [hp] at h4
      have : p = w.2 := Option.some.inj h4
      simp [this, hf]
  · rw [List.getElem?_eq_none (by simp; omega), List.getElem?_eq_none (by simp; omega)]

/-- The loop, if every flight condition with data can be normalised. -/
theorem loop_ok (norm : List ℚ → Except Err (List ℚ)) (c : CountSt) (row : ℕ → ℕ → List ℚ) (pts g : ℕ × ℕ → List ℚ) (lo hi : ℕ × ℕ → ℚ)
    (l : List (ℕ × ℕ))
    (h : ∀ q ∈ l, (c.idx.get q.1 q.2 = 0 ∧ g q = []) ∨ (c.idx.get q.1 q.2 ≠ 0 ∧ (row q.1 q.2).take (c.idx.get q.1 q.2 + 1) = pts q ∧
      norm (pts q) = .ok (g q) ∧ pyMin (g q) = .ok (lo q) ∧ pyMax (g q) = .ok (hi q))) :
    loop norm c row l = .ok ⟨l.flatMap g, (l.filter fun q => c.idx.get q.1 q.2 ≠ 0).map lo, (l.filter fun q => c.idx.get q.1 q.2 ≠ 0).map hi⟩ := by
  induction l with
  | nil => rfl
  | cons q l ih =>
    obtain ⟨M, A⟩ := q
    have hl := ih fun q hq => h q (List.mem_cons_of_mem _ hq)
    unfold loop
    rcases h (M, A) (by simp) with ⟨h1, h2⟩ | ⟨h1, h2, h3, h4, h5⟩
    · rw [if_pos h1, hl]
      simp only at h1
      simp [h1, h2]
    · rw [if_neg h1]
      simp only at h1 h2
      rw [h2, h3]
      simp only [bind, Except.bind, h4, h5, hl]
      simp [h1]

/-- What a normalisation has to do: one map for all values, with a smallest and a largest value. -/
structure Norms (norm : List ℚ → Except Err (List ℚ)) (xs ys : List ℚ) (lo hi : ℚ) : Prop where
  eq : norm xs = .ok ys
  length : ys.length = xs.length
  lo : pyMin ys = .ok lo
  hi : pyMax ys = .ok hi

/-- The groups of a grid in the order of the loop. -/
theorem grid_groups (G : List (List (List DeckPt))) (a : ℕ) (ha : ∀ as ∈ G, as.length ≤ a) :
    (gridMA G.length a).flatMap (fun q => ((G.getD q.1 [])[q.2]?).toList) = G.flatten := by
  have h := grid_flatMap (G.map fun as => as.map fun b => [b]) a (by
    intro as h
    obtain ⟨x, hx, rfl⟩ := List.mem_map.mp h
    simpa using ha x hx)
  rw [List.length_map] at h
  have e : (G.map fun as => as.map fun b => [b]).flatten.flatten = G.flatten := by
    rw [← List.map_flatten]
    generalize G.flatten = l
    induction l with
    | nil => rfl
    | cons x l ih => simp [ih]
  rw [← e, ← h]
  refine List.flatMap_congr fun q _ => ?_
  simp only [List.getD_eq_getElem?_getD, List.getElem?_map]
  cases h1 : G[q.1]? with
  | none => simp
  | some as => cases h2 : as[q.2]? <;> simp [h2]

/-- If no flight condition has a single point, the last Mach number has no more altitudes and the last condition no more points than some
earlier one, and every condition can be normalised, then the new column has a value per point of the deck, the values of a condition are those
of its own points, and there are limits per condition, in the order of the deck. -/
theorem normLocal_partial (norm : List ℚ → Except Err (List ℚ)) (srt : SortBy) (f : DeckPt → ℚ) (deck : List DeckPt) (hne : deck ≠ [])
    (c : CountSt) (hc : countData srt countInit deck = .ok c) :
    ∃ G, G.flatten.flatten = deck ∧ Grouped G ∧
      ((∀ as ∈ G, as.length ≤ maxLen G.dropLast) → (∀ b ∈ G.flatten, 2 ≤ b.length) →
        (∀ b ∈ G.flatten, b.length ≤ maxLen G.flatten.dropLast) →
        ∀ (g : List ℚ → List ℚ) (lo hi : List ℚ → ℚ),
        (∀ b ∈ G.flatten, Norms norm (b.map f) (g (b.map f)) (lo (b.map f)) (hi (b.map f))) →
        normLocal norm srt f deck = .ok ⟨G.flatten.flatMap fun b => g (b.map f), G.flatten.map fun b => lo (b.map f),
          G.flatten.map fun b => hi (b.map f)⟩) := by
  rcases countData_spec srt deck hne with h | ⟨G, c', e, hG, grp, hm, ha, hd, hi, hi0, -⟩
  · rw [h] at hc; cases hc
  rw [hc] at e
  cases e
  refine ⟨G, hG, grp, ?_⟩
  intro h1 h2 h3 g lo up hN
  obtain ⟨ws, hws, -, hmem⟩ := packData_grouped srt deck c G hc hG hm ha hd hi hi0 h1 h2 h3
  have inG : ∀ (M A : ℕ) (b : List DeckPt), (G.getD M [])[A]? = some b → b ∈ G.flatten := by
    intro M A b hb
    have hmem : b ∈ G.getD M [] := List.mem_of_getElem? hb
    rw [List.getD_eq_getElem?_getD] at hmem
    cases hq : G[M]? with
    | none => rw [hq] at hmem; simp at hmem
    | some q =>
      rw [hq] at hmem
      exact List.mem_flatten.2 ⟨q, List.mem_of_getElem? hq, hmem⟩
  have key := loop_ok norm c (packedRow ws c.maxData f) (fun q => (((G.getD q.1 [])[q.2]?).getD []).map f)
    (fun q => ((G.getD q.1 [])[q.2]?).toList.flatMap fun b => g (b.map f)) (fun q => lo ((((G.getD q.1 [])[q.2]?).getD []).map f))
    (fun q => up ((((G.getD q.1 [])[q.2]?).getD []).map f)) (gridMA G.length c.maxAlt) (by
      rintro ⟨M, A⟩ -
      dsimp only
      cases hb : (G.getD M [])[A]? with
      | none => exact .inl ⟨hi0 M A hb, by simp⟩
      | some b =>
        have hb2 := h2 b (inG M A b hb)
        have hb3 := h3 b (inG M A b hb)
        have hg := hi M A b hb
        have n := hN b (inG M A b hb)
        have hl : c.idx.get M A + 1 = b.length := by omega
        right
        refine ⟨by omega, ?_, by simpa using n.eq, by simpa using n.lo, by simpa using n.hi⟩
        rw [hl]
        refine packedRow_take ws c.maxData f M A b (by rw [hd]; exact hb3) fun D p => ?_
        rw [hmem, List.getD_eq_getElem?_getD (l := G.getD M []), hb]
        rfl)
  unfold normLocal
  rw [hc]
  simp only [hws, bind, Except.bind]
  rw [hm, key]
  have hgrid := grid_groups G c.maxAlt (by rw [ha]; exact h1)
  have hcol : ((gridMA G.length c.maxAlt).flatMap fun q => ((G.getD q.1 [])[q.2]?).toList.flatMap fun b => g (b.map f)) =
      G.flatten.flatMap fun b => g (b.map f) := by
    rw [← List.flatMap_assoc, hgrid]
  have hlim : ∀ u : List ℚ → ℚ, ((gridMA G.length c.maxAlt).filter fun q => c.idx.get q.1 q.2 ≠ 0).map
      (fun q => u ((((G.getD q.1 [])[q.2]?).getD []).map f)) = G.flatten.map fun b => u (b.map f) := by
    intro u
    rw [← hgrid, List.map_flatMap]
    generalize gridMA G.length c.maxAlt = l
    induction l with
    | nil => rfl
    | cons q l ih =>
      rw [List.filter_cons, List.flatMap_cons]
      cases hb : (G.getD q.1 [])[q.2]? with
      | none =>
        rw [if_neg (by simp [hi0 q.1 q.2 hb])]
        simpa using ih
      | some b =>
        have hg := hi q.1 q.2 b hb
        rw [if_pos (by simp; omega), List.map_cons, ih, hb]
        rfl
  rw [hcol, hlim lo, hlim up]

/-- Throttles: if every flight condition has two different settings, all of them are spread over the whole scale, so that the stored limits
are always zero and one. -/
theorem throttle_partial (srt : SortBy) (f : DeckPt → ℚ) (deck : List DeckPt) (hne : deck ≠ []) (c : CountSt)
    (hc : countData srt countInit deck = .ok c) :
    ∃ G, G.flatten.flatten = deck ∧ Grouped G ∧
      ((∀ as ∈ G, as.length ≤ maxLen G.dropLast) → (∀ b ∈ G.flatten, b.length ≤ maxLen G.flatten.dropLast) →
        (∀ b ∈ G.flatten, ∃ p ∈ b, ∃ q ∈ b, f p ≠ f q) →
        ∃ g : List ℚ → ℚ → ℚ, (∀ b ∈ G.flatten, StrictMono (g (b.map f)) ∧ (∀ p ∈ b, 0 ≤ g (b.map f) (f p) ∧ g (b.map f) (f p) ≤ 1)) ∧
          normLocal (fun xs => normalize xs) srt f deck = .ok ⟨G.flatten.flatMap fun b => b.map fun p => g (b.map f) (f p),
            List.replicate G.flatten.length 0, List.replicate G.flatten.length 1⟩) := by
  obtain ⟨G, hG, grp, H⟩ := normLocal_partial (fun xs => normalize xs) srt f deck hne c hc
  refine ⟨G, hG, grp, ?_⟩
  intro h1 h3 hv
  have h2 : ∀ b ∈ G.flatten, 2 ≤ b.length := by
    intro b hb
    obtain ⟨p, hp, q, hq, hpq⟩ := hv b hb
    match b, hp, hq with
    | [], hp, _ => simp at hp
    | [x], hp, hq =>
      simp only [List.mem_singleton] at hp hq
      rw [hp, hq] at hpq
      exact absurd rfl hpq
    | _ :: _ :: _, _, _ => simp
  have hsp : ∀ b ∈ G.flatten, ∃ k : ℚ → ℚ, normalize (b.map f) = .ok ((b.map f).map k) ∧ StrictMono k ∧
      (∀ x ∈ b.map f, 0 ≤ k x ∧ k x ≤ 1) ∧ pyMin ((b.map f).map k) = .ok 0 ∧ pyMax ((b.map f).map k) = .ok 1 := by
    intro b hb
    obtain ⟨p, hp, q, hq, hpq⟩ := hv b hb
    obtain ⟨k, e, hmono, hr, k1, k0⟩ := normalize_spec (b.map f) (f p) (f q) (List.mem_map_of_mem hp) (List.mem_map_of_mem hq) hpq
    have hne' : b.map f ≠ [] := List.ne_nil_of_mem (List.mem_map_of_mem hp)
    obtain ⟨mx, _, m1, u1⟩ := pyMax_spec _ hne'
    obtain ⟨mn, _, m0, u0⟩ := pyMin_spec _ hne'
    refine ⟨k, e, hmono, hr, pyMin_unique ?_ ?_, pyMax_unique ?_ ?_⟩
    · rw [← k0 mn m0 u0]; exact List.mem_map_of_mem m0
    · intro y hy
      obtain ⟨x, hx, rfl⟩ := List.mem_map.mp hy
      exact (hr x hx).1
    · rw [← k1 mx m1 u1]; exact List.mem_map_of_mem m1
    · intro y hy
      obtain ⟨x, hx, rfl⟩ := List.mem_map.mp hy
      exact (hr x hx).2
  classical
  let g : List ℚ → ℚ → ℚ := fun xs =>
    if h : ∃ k : ℚ → ℚ, normalize xs = .ok (xs.map k) ∧ StrictMono k ∧ (∀ x ∈ xs, 0 ≤ k x ∧ k x ≤ 1) ∧ pyMin (xs.map k) = .ok 0 ∧
      pyMax (xs.map k) = .ok 1 then h.choose else id
  have hg : ∀ b ∈ G.flatten, normalize (b.map f) = .ok ((b.map f).map (g (b.map f))) ∧ StrictMono (g (b.map f)) ∧
      (∀ x ∈ b.map f, 0 ≤ g (b.map f) x ∧ g (b.map f) x ≤ 1) ∧ pyMin ((b.map f).map (g (b.map f))) = .ok 0 ∧
      pyMax ((b.map f).map (g (b.map f))) = .ok 1 := by
    intro b hb
    have h := hsp b hb
    have e : g (b.map f) = h.choose := dif_pos h
    rw [e]
    exact h.choose_spec
  refine ⟨g, fun b hb => ⟨(hg b hb).2.1, fun p hp => (hg b hb).2.2.1 _ (List.mem_map_of_mem hp)⟩, ?_⟩
  rw [H h1 h2 h3 (fun xs => xs.map (g xs)) (fun _ => 0) (fun _ => 1) fun b hb =>
    ⟨(hg b hb).1, by simp, (hg b hb).2.2.2.1, (hg b hb).2.2.2.2⟩]
  congr 2
  · exact List.flatMap_congr fun b _ => by rw [List.map_map]; rfl
  · exact List.map_const'
  · exact List.map_const'

/-- Hybrid throttles: zero stays, and the values of a condition keep their order, within one of zero. -/
theorem hybrid_partial (srt : SortBy) (f : DeckPt → ℚ) (deck : List DeckPt) (hne : deck ≠ []) (c : CountSt)
    (hc : countData srt countInit deck = .ok c) :
    ∃ G, G.flatten.flatten = deck ∧ Grouped G ∧
      ((∀ as ∈ G, as.length ≤ maxLen G.dropLast) → (∀ b ∈ G.flatten, 2 ≤ b.length) →
        (∀ b ∈ G.flatten, b.length ≤ maxLen G.flatten.dropLast) →
        ∃ g : List ℚ → ℚ → ℚ, (∀ xs, StrictMono (g xs) ∧ g xs 0 = 0 ∧ (∀ x ∈ xs, -1 ≤ g xs x ∧ g xs x ≤ 1)) ∧
          ∃ los his, normLocal hybridNorm srt f deck = .ok ⟨G.flatten.flatMap fun b => b.map fun p => g (b.map f) (f p), los, his⟩ ∧
            los.length = G.flatten.length ∧ his.length = G.flatten.length) := by
  obtain ⟨G, hG, grp, H⟩ := normLocal_partial hybridNorm srt f deck hne c hc
  refine ⟨G, hG, grp, ?_⟩
  intro h1 h2 h3
  choose g hg using hybridNorm_spec
  have hne' : ∀ b ∈ G.flatten, (b.map f).map (g (b.map f)) ≠ [] := by
    intro b hb
    have := h2 b hb
    intro e
    have e' : b = [] := by simpa using e
    subst e'
    simp at this
  have hm : ∀ xs : List ℚ, ∃ m, xs ≠ [] → pyMin xs = .ok m := fun xs => by
    by_cases h : xs = []
    · exact ⟨0, fun h' => absurd h h'⟩
    · obtain ⟨m, e, -⟩ := pyMin_spec xs h
      exact ⟨m, fun _ => e⟩
  have hx : ∀ xs : List ℚ, ∃ m, xs ≠ [] → pyMax xs = .ok m := fun xs => by
    by_cases h : xs = []
    · exact ⟨0, fun h' => absurd h h'⟩
    · obtain ⟨m, e, -⟩ := pyMax_spec xs h
      exact ⟨m, fun _ => e⟩
  choose lo hlo using hm
  choose up hup using hx
  have e : (G.flatten.flatMap fun b => (b.map f).map (g (b.map f))) = G.flatten.flatMap fun b => b.map fun p => g (b.map f) (f p) :=
    List.flatMap_congr fun b _ => by rw [List.map_map]; rfl
  have h := H h1 h2 h3 (fun xs => xs.map (g xs)) (fun xs => lo (xs.map (g xs))) (fun xs => up (xs.map (g xs))) fun b hb =>
    ⟨(hg _).1, by simp, hlo _ (hne' b hb), hup _ (hne' b hb)⟩
  rw [e] at h
  exact ⟨g, fun xs => ⟨(hg xs).2.1, (hg xs).2.2.1, (hg xs).2.2.2.1⟩, _, _, h, List.length_map .., List.length_map ..⟩

/-- A regular deck of two Mach numbers and two altitudes. -/
def regular : List DeckPt :=
  [⟨0, 0, [10]⟩, ⟨0, 0, [20]⟩, ⟨0, 1000, [3]⟩, ⟨0, 1000, [4]⟩, ⟨1/2, 0, [5]⟩, ⟨1/2, 0, [6]⟩, ⟨1/2, 1000, [7]⟩, ⟨1/2, 1000, [8]⟩]

/-- The first column. -/
def first (p : DeckPt) : ℚ := p.row.getD 0 0

example : normLocal (fun xs => normalize xs) .mach first regular = .ok ⟨[0, 1, 0, 1, 0, 1, 0, 1], [0, 0, 0, 0], [1, 1, 1, 1]⟩ := by decide +kernel

/-- A flight condition with one point takes the first point of the next one, and all others shift: the new column is longer than the deck, and
the last setting, the largest of its condition, becomes the ratio to nothing. -/
theorem single_point_violated :
    ∃ deck : List DeckPt, deck.length = 7 ∧ ∃ o, normLocal (fun xs => normalize xs) .mach first deck = .ok o ∧ o.col.length = 8 ∧
      o.col = [0, 1, 0, 1, 0, 1, 1, 0] := by
  refine ⟨[⟨0, 0, [1]⟩, ⟨0, 1000, [2]⟩, ⟨0, 1000, [3]⟩, ⟨1/2, 0, [4]⟩, ⟨1/2, 0, [5]⟩, ⟨1/2, 1000, [6]⟩, ⟨1/2, 1000, [7]⟩], rfl,
    ⟨[0, 1, 0, 1, 0, 1, 1, 0], [0, 0, 0, 0], [1, 1, 1, 1]⟩, ?_, rfl, rfl⟩
  decide +kernel

/-- A condition with the same setting twice cannot be normalised. -/
theorem equal_settings_violated :
    normLocal (fun xs => normalize xs) .mach first
      [⟨0, 0, [1]⟩, ⟨0, 0, [1]⟩, ⟨0, 1000, [3]⟩, ⟨0, 1000, [4]⟩, ⟨1/2, 0, [5]⟩, ⟨1/2, 0, [6]⟩, ⟨1/2, 1000, [7]⟩, ⟨1/2, 1000, [8]⟩] =
      .error .zeroDivision := by decide +kernel

end Verif.ThrottleLocal
