import Verif.Model.Skill
import Verif.Spec.Conditions
import Verif.Lemmas.Py

/-!
# Lemmas about splitting, stripping and joining condition strings
-/

namespace Ama

open Spec

theorem splitComma_ne_nil (s : List Char) : splitComma s ≠ [] := by
  induction s with
  | nil => simp [splitComma]
  | cons c cs ih =>
    simp only [splitComma]
    split_ifs
    · simp
    · cases h : splitComma cs <;> simp

theorem splitComma_append (a b : List Char) :
    splitComma (a ++ ',' :: b) = splitComma a ++ splitComma b := by
  induction a with
  | nil => simp [splitComma]
  | cons c cs ih =>
    simp only [List.cons_append, splitComma]
    split_ifs
    · simp [ih]
    · rw [ih]
      cases h : splitComma cs with
      | nil => exact absurd h (splitComma_ne_nil cs)
      | cons p ps => simp

theorem splitComma_of_not_mem {a : List Char} (h : ',' ∉ a) : splitComma a = [a] := by
  induction a with
  | nil => simp [splitComma]
  | cons c cs ih =>
    simp only [List.mem_cons, not_or] at h
    simp [splitComma, Ne.symm h.1, ih h.2]

theorem not_mem_of_mem_splitComma {s p : List Char} (h : p ∈ splitComma s) : ',' ∉ p := by
  induction s generalizing p with
  | nil =>
    simp [splitComma] at h
    simp [h]
  | cons c cs ih =>
    simp only [splitComma] at h
    split_ifs at h with hc
    · rcases List.mem_cons.1 h with rfl | h
      · simp
      · exact ih h
    · cases hs : splitComma cs with
      | nil => exact absurd hs (splitComma_ne_nil cs)
      | cons q qs =>
        rw [hs] at h
        rcases List.mem_cons.1 h with rfl | h
        · have := ih (p := q) (by rw [hs]; simp)
          simp [Ne.symm hc, this]
        · exact ih (by rw [hs]; simp [h])

theorem splitComma_join {ws p : List Char} {ps : List (List Char)} (hws : ',' ∉ ws) (hp : ',' ∉ p)
    (hps : ∀ q ∈ ps, ',' ∉ q) :
    splitComma (joinWith (',' :: ws) (p :: ps)) = p :: ps.map (ws ++ ·) := by
  induction ps generalizing p with
  | nil => simp [joinWith, splitComma_of_not_mem hp]
  | cons q qs ih =>
    have hq := hps q (by simp)
    have ih' := ih hq (fun r hr => hps r (by simp [hr]))
    simp only [joinWith, List.append_assoc, List.cons_append] at ih' ⊢
    rw [splitComma_append, splitComma_of_not_mem hp]
    have key : ∀ r : List Char, splitComma (ws ++ r) =
        match splitComma r with
        | [] => [ws]
        | x :: xs => (ws ++ x) :: xs := by
      intro r
      clear ih' ih hq hps
      induction ws with
      | nil =>
        cases h : splitComma r with
        | nil => exact absurd h (splitComma_ne_nil r)
        | cons x xs => simp [h]
      | cons c cs ihw =>
        simp only [List.mem_cons, not_or] at hws
        simp only [List.cons_append, splitComma, Ne.symm hws.1, if_false, ihw hws.2]
        cases h : splitComma r with
        | nil => exact absurd h (splitComma_ne_nil r)
        | cons x xs => simp
    rw [key]
    cases qs with
    | nil => simp [joinWith, splitComma_of_not_mem hq]
    | cons q' qs' =>
      rw [ih']
      simp

theorem dropWhile_append_of_all {p : Char → Bool} {ws r : List Char} (h : ∀ c ∈ ws, p c = true) :
    (ws ++ r).dropWhile p = r.dropWhile p := by
  induction ws with
  | nil => rfl
  | cons c cs ih =>
    have hc := h c (by simp)
    simp only [List.cons_append, List.dropWhile_cons, hc, if_true]
    exact ih (fun d hd => h d (by simp [hd]))

theorem stripChars_append {ws r : List Char} (h : ∀ c ∈ ws, isPySpace c = true) :
    stripChars (ws ++ r) = stripChars r := by
  simp [stripChars, dropWhile_append_of_all h]

theorem dropWhile_eq_self {p : Char → Bool} {l : List Char}
    (h : ∀ x, l.head? = some x → p x = false) : l.dropWhile p = l := by
  cases l with
  | nil => rfl
  | cons a l => simp [List.dropWhile_cons, h a rfl]

theorem stripChars_of_clean {l : List Char} (h1 : ∀ x, l.head? = some x → isPySpace x = false)
    (h2 : ∀ x, l.getLast? = some x → isPySpace x = false) : stripChars l = l := by
  unfold stripChars
  rw [dropWhile_eq_self h1, dropWhile_eq_self]
  · simp
  · simpa using h2

theorem head_dropWhile {p : Char → Bool} {l : List Char} {x : Char}
    (h : (l.dropWhile p).head? = some x) : p x = false := by
  induction l with
  | nil => simp at h
  | cons a l ih =>
    rw [List.dropWhile_cons] at h
    split_ifs at h with hp
    · exact ih h
    · simp at h
      subst h
      simpa using hp

theorem stripChars_subset {l : List Char} {c : Char} (h : c ∈ stripChars l) : c ∈ l := by
  unfold stripChars at h
  rw [List.mem_reverse] at h
  have h := (List.dropWhile_sublist _).subset h
  rw [List.mem_reverse] at h
  exact (List.dropWhile_sublist _).subset h

theorem stripChars_last {l : List Char} {x : Char} (h : (stripChars l).getLast? = some x) :
    isPySpace x = false := by
  unfold stripChars at h
  rw [List.getLast?_reverse] at h
  exact head_dropWhile h

theorem stripChars_head {l : List Char} {x : Char} (h : (stripChars l).head? = some x) :
    isPySpace x = false := by
  unfold stripChars at h
  rw [List.head?_reverse] at h
  -- the last element of `dropWhile p m.reverse` is the last element of `m.reverse`, i.e. `m`'s head
  set m := l.dropWhile isPySpace with hm
  have hsuf : (m.reverse.dropWhile isPySpace) <:+ m.reverse := List.dropWhile_suffix _
  have hlast : m.reverse.getLast? = some x := by
    obtain ⟨t, ht⟩ := hsuf
    rw [← ht]
    rw [List.getLast?_append, h]
    rfl
  rw [List.getLast?_reverse] at hlast
  exact head_dropWhile (hm ▸ hlast)

theorem cleanName_strip {p : List Char} (h : ',' ∉ p) : CleanName (String.ofList (stripChars p)) := by
  refine ⟨?_, ?_, ?_⟩
  · rw [String.toList_ofList]
    exact fun hc => h (stripChars_subset hc)
  · intro x hx
    rw [String.toList_ofList] at hx
    exact stripChars_head hx
  · intro x hx
    rw [String.toList_ofList] at hx
    exact stripChars_last hx

theorem canonicalize_clean {s c : String} (h : c ∈ Utils.canonicalizeCondition s) : CleanName c := by
  unfold Utils.canonicalizeCondition at h
  split_ifs at h
  · simp at h
  · rw [List.mem_toFinset, List.mem_map] at h
    obtain ⟨p, hp, rfl⟩ := h
    exact cleanName_strip (not_mem_of_mem_splitComma hp)

/-- Reading back a joined list of clean names. -/
theorem canonicalize_strJoin (ws : List Char) (hws : ∀ c ∈ ws, isPySpace c = true) (l : List String)
    (hl : ∀ c ∈ l, CleanName c) (hne : l ≠ [""]) :
    Utils.canonicalizeCondition (strJoin (String.ofList (',' :: ws)) l) = l.toFinset := by
  have hwsc : ',' ∉ ws := by
    intro h
    have := hws _ h
    revert this
    decide
  cases l with
  | nil =>
    simp [strJoin, joinWith, Utils.canonicalizeCondition]
  | cons a l =>
    have hnon : ¬ (joinWith (',' :: ws) ((a :: l).map String.toList)).length = 0 := by
      cases l with
      | nil =>
        simp only [List.map_cons, List.map_nil, joinWith]
        intro h0
        apply hne
        have : a.toList = [] := List.length_eq_zero_iff.1 h0
        have ha : a = "" := by
          rw [← String.toList_inj]
          simpa using this
        rw [ha]
      | cons b l => simp [joinWith]
    unfold Utils.canonicalizeCondition strJoin
    simp only [String.toList_ofList]
    rw [if_neg hnon]
    rw [List.map_cons, splitComma_join hwsc (hl a (by simp)).1 (by
      intro q hq
      obtain ⟨c, hc, rfl⟩ := List.mem_map.1 hq
      exact (hl c (by simp [hc])).1)]
    have hstrip : ∀ c ∈ a :: l, String.ofList (stripChars c.toList) = c := by
      intro c hc
      rw [stripChars_of_clean (hl c hc).2.1 (hl c hc).2.2, String.ofList_toList]
    congr 1
    simp only [List.map_cons, List.map_map, List.cons.injEq]
    refine ⟨hstrip a (by simp), ?_⟩
    conv_rhs => rw [← List.map_id l]
    apply List.map_congr_left
    intro c hc
    simp only [Function.comp, stripChars_append hws, id]
    exact hstrip c (by simp [hc])

theorem canonicalize_append (a b : String) (ha : a ≠ "") (hb : b ≠ "") :
    Utils.canonicalizeCondition (a ++ ", " ++ b) =
      Utils.canonicalizeCondition a ∪ Utils.canonicalizeCondition b := by
  have hlen : ∀ s : String, s ≠ "" → ¬ s.toList.length = 0 := by
    intro s hs h0
    apply hs
    rw [← String.toList_inj]
    simpa using List.length_eq_zero_iff.1 h0
  unfold Utils.canonicalizeCondition
  have hab : (a ++ ", " ++ b).toList = a.toList ++ ',' :: (' ' :: b.toList) := by
    rw [String.toList_append, String.toList_append]
    simp
  rw [if_neg (hlen a ha), if_neg (hlen b hb), if_neg (by rw [hab]; simp), hab, splitComma_append]
  have hsp : (splitComma (' ' :: b.toList)).map (fun x => String.ofList (stripChars x)) =
      (splitComma b.toList).map (fun x => String.ofList (stripChars x)) := by
    simp only [splitComma]
    have h1 : ¬ (' ' = ',') := by decide
    simp only [h1, if_false]
    cases h : splitComma b.toList with
    | nil => exact absurd h (splitComma_ne_nil _)
    | cons p ps =>
      simp only [List.map_cons]
      congr 2
  rw [List.map_append, hsp, List.toFinset_append]

end Ama
