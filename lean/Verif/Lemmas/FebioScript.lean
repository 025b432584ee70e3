import Verif.Spec.FebioScript
import Mathlib.Tactic

/-!
# Lemmas on the input file of FEBio
-/

set_option autoImplicit false
set_option linter.all false

namespace Caribou

namespace Febio

open Spec

theorem febioType_injective {a b : CellType} {n : String} (ha : febioType a = some n) (hb : febioType b = some n) : a = b := by
  cases a <;> cases b <;> simp [febioType] at ha hb ⊢ <;> subst ha <;> simp at hb

/-- A type which is not in the dictionary yet is appended. -/
theorem addTags_fresh (name : String) (b : Block) : ∀ (ts : List ℕ) (d : ℕ → Types), ts.Nodup → (∀ t ∈ ts, ∀ e ∈ d t, e.1 ≠ name) →
    addTags name b ts d = some fun t => if t ∈ ts then d t ++ [(name, select b t)] else d t
  | [], d, _, _ => by simp [addTags]
  | t :: ts, d, hn, hd => by
    have hnone : (d t).find? (fun e => e.1 == name) = none := by
      rw [List.find?_eq_none]
      intro e he
      simpa using hd t (by simp) e he
    have hstep : addTag name b d t = some (Function.update d t (d t ++ [(name, select b t)])) := by
      unfold addTag
      rw [hnone]
    rw [List.nodup_cons] at hn
    have hrec := addTags_fresh name b ts (Function.update d t (d t ++ [(name, select b t)])) hn.2 (by
      intro u hu e he
      have hne : u ≠ t := fun h => hn.1 (h ▸ hu)
      rw [Function.update_of_ne hne] at he
      exact hd u (by simp [hu]) e he)
    unfold addTags
    rw [hstep]
    simp only
    rw [hrec]
    congr 1
    funext u
    by_cases hu : u = t
    · subst hu
      simp [hn.1]
    · simp [hu, Function.update_of_ne hu]

/-- The entries of a tag for blocks with distinct types. -/
def expected (bs : List Block) (t : ℕ) : Types :=
  bs.flatMap fun b => if t ∈ b.cells.map Prod.snd then ((febioType b.type).toList.map fun n => (n, select b t)) else []

theorem sortElements_distinct : ∀ (bs : List Block) (d : ℕ → Types), (bs.map Block.type).Nodup → (∀ b ∈ bs, (febioType b.type).isSome) →
    (∀ b ∈ bs, ∀ n, febioType b.type = some n → ∀ t, ∀ e ∈ d t, e.1 ≠ n) → sortElements bs d = some fun t => d t ++ expected bs t
  | [], d, _, _, _ => by simp [sortElements, expected]
  | b :: bs, d, hn, hk, hd => by
    obtain ⟨name, hname⟩ := Option.isSome_iff_exists.mp (hk b (by simp))
    rw [List.map_cons, List.nodup_cons] at hn
    have h1 := addTags_fresh name b (b.cells.map Prod.snd).dedup d (List.nodup_dedup _) (fun t _ e he => hd b (by simp) name hname t e he)
    unfold sortElements
    rw [hname]
    simp only
    rw [h1]
    simp only
    rw [sortElements_distinct bs _ hn.2 (fun c hc => hk c (by simp [hc]))]
    · congr 1
      funext t
      by_cases ht : t ∈ b.cells.map Prod.snd
      · simp only [List.mem_dedup, ht, if_true, expected, List.flatMap_cons, hname]
        simp
      · simp only [List.mem_dedup, ht, if_false, expected, List.flatMap_cons]
        simp
    · intro c hc n hcn t e he
      by_cases ht : t ∈ (b.cells.map Prod.snd).dedup
      · simp only [ht, if_true, List.mem_append, List.mem_singleton] at he
        rcases he with he | he
        · exact hd c (by simp [hc]) n hcn t e he
        · subst he
          intro h
          simp only at h
          subst h
          exact hn.1 (List.mem_map.mpr ⟨c, hc, febioType_injective hcn hname⟩)
      · simp only [ht, if_false] at he
        exact hd c (by simp [hc]) n hcn t e he

theorem sortElements_start (bs : List Block) (hn : (bs.map Block.type).Nodup) (hk : ∀ b ∈ bs, (febioType b.type).isSome) :
    sortElements bs (fun _ => []) = some (expected bs) := by
  rw [sortElements_distinct bs _ hn hk (by simp)]
  simp

theorem select_only (b : Block) (t : ℕ) (h : OnlyTag b t) : select b t = .three [b.cells.map Prod.fst] := by
  unfold select
  rw [if_pos]
  simpa [OnlyTag] using h

theorem select_mixed (b : Block) (t : ℕ) (h : ¬ OnlyTag b t) : select b t = .two ((b.cells.filter fun c => c.2 == t).map Prod.fst) := by
  unfold select
  rw [if_neg]
  simpa [OnlyTag] using h

theorem mem_tags (b : Block) (t : ℕ) : t ∈ b.cells.map Prod.snd ↔ HasTag b t := by
  simp only [List.mem_map, HasTag]

theorem entries_content (type : String) (s : ℕ) (rows : List (List ℕ)) :
    (entries type s rows).map (fun e => (some e.type, e.nodes)) = rows.map fun r => (some type, r.map (· + 1)) := by
  simp only [entries]
  exact List.ext_getElem (by simp) (by simp)

theorem entries_ids (type : String) (s : ℕ) (rows : List (List ℕ)) : (entries type s rows).map Entry.id = List.range' s rows.length := by
  simp only [entries]
  exact List.ext_getElem (by simp) (by simp)

theorem tagged_cons (b : Block) (bs : List Block) (t : ℕ) : taggedElements (b :: bs) t =
    ((b.cells.filter fun c => c.2 = t).map fun c => (febioType b.type, c.1.map (· + 1))) ++ taggedElements bs t := by
  simp [taggedElements]

theorem tagged_none (b : Block) (t : ℕ) (h : ¬ HasTag b t) : (b.cells.filter fun c => c.2 = t) = [] := by
  rw [List.filter_eq_nil_iff]
  intro c hc hct
  exact h ⟨c, hc, by simpa using hct⟩

theorem tagged_all (b : Block) (t : ℕ) (h : OnlyTag b t) : (b.cells.filter fun c => c.2 = t) = b.cells := by
  rw [List.filter_eq_self]
  intro c hc
  simpa using h c hc

theorem expected_cons (b : Block) (bs : List Block) (t : ℕ) (n : String) (hn : febioType b.type = some n) :
    expected (b :: bs) t = (if t ∈ b.cells.map Prod.snd then [(n, select b t)] else []) ++ expected bs t := by
  simp [expected, hn]

/-- The volume elements, when every block which has some has nothing else. -/
theorem volumeLines_expected (t : ℕ) : ∀ bs : List Block, (∀ b ∈ bs, (febioType b.type).isSome) → (∀ b ∈ bs, HasTag b t → OnlyTag b t) →
    ∃ l, volumeLines (expected bs t) = some l ∧ l.map (fun e => (some e.type, e.nodes)) = taggedElements bs t
  | [], _, _ => ⟨[], by simp [expected, volumeLines], by simp [taggedElements]⟩
  | b :: bs, hk, hu => by
    obtain ⟨name, hname⟩ := Option.isSome_iff_exists.mp (hk b (by simp))
    obtain ⟨l, hl, hlc⟩ := volumeLines_expected t bs (fun c hc => hk c (by simp [hc])) (fun c hc => hu c (by simp [hc]))
    rw [expected_cons b bs t name hname, tagged_cons]
    by_cases ht : HasTag b t
    · have ho := hu b (by simp) ht
      rw [if_pos ((mem_tags b t).mpr ht), select_only b t ho, tagged_all b t ho]
      refine ⟨entries name 1 (b.cells.map Prod.fst) ++ l, ?_, ?_⟩
      · simp only [List.singleton_append, volumeLines, hl, Option.map_some]
      · rw [List.map_append, entries_content, hlc, hname, List.map_map]
        rfl
    · rw [if_neg (fun h => ht ((mem_tags b t).mp h)), tagged_none b t ht]
      exact ⟨l, by simpa using hl, by simpa using hlc⟩

/-- The elements of a surface, when every block which has some has other tags too. -/
theorem surfaceLines_expected (t : ℕ) : ∀ (bs : List Block) (id : ℕ), (∀ b ∈ bs, (febioType b.type).isSome) → (∀ b ∈ bs, HasTag b t → ¬ OnlyTag b t) →
    ∃ l, surfaceLines (expected bs t) id = some l ∧ l.map (fun e => (some e.type, e.nodes)) = taggedElements bs t ∧ l.map Entry.id = List.range' (id + 1) l.length
  | [], id, _, _ => ⟨[], by simp [expected, surfaceLines], by simp [taggedElements], by simp⟩
  | b :: bs, id, hk, hu => by
    obtain ⟨name, hname⟩ := Option.isSome_iff_exists.mp (hk b (by simp))
    rw [expected_cons b bs t name hname, tagged_cons]
    by_cases ht : HasTag b t
    · have ho := hu b (by simp) ht
      rw [if_pos ((mem_tags b t).mpr ht), select_mixed b t ho]
      obtain ⟨l, hl, hlc, hli⟩ := surfaceLines_expected t bs (id + ((b.cells.filter fun c => c.2 == t).map Prod.fst).length) (fun c hc => hk c (by simp [hc]))
        (fun c hc => hu c (by simp [hc]))
      refine ⟨entries name (id + 1) ((b.cells.filter fun c => c.2 == t).map Prod.fst) ++ l, ?_, ?_, ?_⟩
      · simp only [List.singleton_append, surfaceLines, hl, Option.map_some]
      · rw [List.map_append, entries_content, hlc, hname, List.map_map]
        rfl
      · rw [List.map_append, entries_ids, hli, List.length_append]
        have hlen : (entries name (id + 1) ((b.cells.filter fun c => c.2 == t).map Prod.fst)).length = ((b.cells.filter fun c => c.2 == t).map Prod.fst).length := by simp [entries]
        rw [hlen, List.range'_append_1 |>.symm]
        congr 2
        omega
    · obtain ⟨l, hl, hlc, hli⟩ := surfaceLines_expected t bs id (fun c hc => hk c (by simp [hc])) (fun c hc => hu c (by simp [hc]))
      rw [if_neg (fun h => ht ((mem_tags b t).mp h)), tagged_none b t ht]
      exact ⟨l, by simpa using hl, by simpa using hlc, hli⟩

theorem expected_nil (t : ℕ) : ∀ bs : List Block, (∀ b ∈ bs, ¬ HasTag b t) → expected bs t = []
  | [], _ => rfl
  | b :: bs, h => by
    simp only [expected, List.flatMap_cons]
    rw [if_neg (fun h' => h b (by simp) ((mem_tags b t).mp h'))]
    exact expected_nil t bs fun c hc => h c (by simp [hc])

theorem tagged_nil (t : ℕ) : ∀ bs : List Block, (∀ b ∈ bs, ¬ HasTag b t) → taggedElements bs t = []
  | [], _ => rfl
  | b :: bs, h => by
    rw [tagged_cons, tagged_none b t (h b (by simp)), tagged_nil t bs fun c hc => h c (by simp [hc])]
    rfl

/-- With one type of elements, the dictionary of the tag has one entry. -/
theorem expected_single (t : ℕ) (b : Block) (n : String) (hn : febioType b.type = some n) (hb : HasTag b t) : ∀ bs : List Block, b ∈ bs → (bs.map Block.type).Nodup →
    (∀ c ∈ bs, HasTag c t → c.type = b.type) → expected bs t = [(n, select b t)] ∧ taggedElements bs t = taggedElements [b] t
  | [], h, _, _ => by simp at h
  | c :: bs, h, hnd, ho => by
    rw [List.map_cons, List.nodup_cons] at hnd
    by_cases hc : HasTag c t
    · have hct := ho c (by simp) hc
      have hrest : ∀ x ∈ bs, ¬ HasTag x t := fun x hx hxt => hnd.1 (List.mem_map.mpr ⟨x, hx, by rw [ho x (by simp [hx]) hxt, hct]⟩)
      have hbc : b = c := by
        rcases List.mem_cons.mp h with h | h
        · exact h
        · exact absurd hb (hrest b h)
      subst hbc
      rw [expected_cons b bs t n hn, if_pos ((mem_tags b t).mpr hc), expected_nil t bs hrest, tagged_cons, tagged_cons, tagged_nil t bs hrest, tagged_nil t [] (by simp)]
      exact ⟨rfl, rfl⟩
    · have hbs : b ∈ bs := by
        rcases List.mem_cons.mp h with h | h
        · exact absurd (h ▸ hb) hc
        · exact h
      obtain ⟨h1, h2⟩ := expected_single t b n hn hb bs hbs hnd.2 fun x hx => ho x (by simp [hx])
      refine ⟨?_, ?_⟩
      · have : expected (c :: bs) t = expected bs t := by
          simp only [expected, List.flatMap_cons]
          rw [if_neg (fun h' => hc ((mem_tags c t).mp h'))]
          rfl
        rw [this, h1]
      · rw [tagged_cons, tagged_none c t hc, ← h2]
        rfl

theorem expected_mem (t : ℕ) (bs : List Block) (b : Block) (hb : b ∈ bs) (n : String) (hn : febioType b.type = some n) (ht : HasTag b t) :
    (n, select b t) ∈ expected bs t := by
  simp only [expected, List.mem_flatMap]
  refine ⟨b, hb, ?_⟩
  rw [if_pos ((mem_tags b t).mpr ht), hn]
  simp

/-- One array with two dimensions among the volume elements is enough to stop. -/
theorem volumeLines_none : ∀ (ts : Types) (n : String) (r : List ℕ) (rs : List (List ℕ)), (n, NpArray.two (r :: rs)) ∈ ts → r ≠ [] → volumeLines ts = none
  | [], _, _, _, h, _ => by simp at h
  | (m, .three (rows :: bs)) :: ts, n, r, rs, h, hr => by
    have h' : (n, NpArray.two (r :: rs)) ∈ ts := by simpa using h
    simp only [volumeLines, volumeLines_none ts n r rs h' hr, Option.map_none]
  | (m, .three []) :: ts, n, r, rs, h, hr => by simp only [volumeLines]
  | (m, .two ([] :: rows)) :: ts, n, r, rs, h, hr => by
    have h' : (n, NpArray.two (r :: rs)) ∈ ts := by
      rcases List.mem_cons.mp h with h | h
      · simp only [Prod.mk.injEq, NpArray.two.injEq, List.cons.injEq] at h
        exact absurd h.2.1 hr
      · exact h
    simp only [volumeLines, volumeLines_none ts n r rs h' hr]
  | (m, .two []) :: ts, n, r, rs, h, hr => by simp only [volumeLines]
  | (m, .two ((x :: xs) :: rows)) :: ts, n, r, rs, h, hr => by simp only [volumeLines]

/-- One array with three dimensions among the elements of a surface is enough to stop. -/
theorem surfaceLines_none : ∀ (ts : Types) (id : ℕ) (n : String) (rows : List (List ℕ)), (n, NpArray.three [rows]) ∈ ts → rows ≠ [] → surfaceLines ts id = none
  | [], _, _, _, h, _ => by simp at h
  | (m, .two a) :: ts, id, n, rows, h, hr => by
    have h' : (n, NpArray.three [rows]) ∈ ts := by simpa using h
    simp only [surfaceLines, surfaceLines_none ts _ n rows h' hr, Option.map_none]
  | (m, .three bs) :: ts, id, n, rows, h, hr => by
    rcases List.mem_cons.mp h with h | h
    · simp only [Prod.mk.injEq, NpArray.three.injEq] at h
      simp only [surfaceLines, ← h.2]
      rw [if_neg]
      simpa using hr
    · simp only [surfaceLines]
      split_ifs
      · rw [surfaceLines_none ts _ n rows h hr, Option.map_none]
      · rfl

theorem lastRecord_none {α : Type*} (r : α → Bool) : ∀ (ls : List α) (id last : ℕ), (∀ l ∈ ls, r l = false) → lastRecord r ls id last = last
  | [], _, _, _ => rfl
  | l :: ls, id, last, h => by
    rw [lastRecord, h l (by simp)]
    exact lastRecord_none r ls (id + 1) last fun x hx => h x (by simp [hx])

theorem lastRecord_append {α : Type*} (r : α → Bool) (x : α) (hx : r x = true) (post : List α) (hp : ∀ l ∈ post, r l = false) : ∀ (pre : List α) (id last : ℕ),
    lastRecord r (pre ++ x :: post) id last = id + pre.length
  | [], id, last => by
    rw [List.nil_append, lastRecord, hx, lastRecord_none r post _ _ hp]
    simp
  | l :: ls, id, last => by
    rw [List.cons_append, lastRecord, lastRecord_append r x hx post hp ls]
    simp only [List.length_cons]
    omega

end Febio

end Caribou
