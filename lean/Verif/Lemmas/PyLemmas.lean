import Verif.Py
import Mathlib.Tactic.Push
import Mathlib.Tactic.Linarith
import Mathlib.Data.List.Forall2
import Mathlib.Data.List.Perm.Basic
import Mathlib.Data.List.Induction

/-! Lemmas about the Python fragment. -/
namespace Dsps.Lemmas
open Py

theorem replace_eq (s : Str) (c : Char) (new : Str) : replace s c new = s.flatMap fun d => replace [d] c new := by
  unfold replace; simp

theorem replace_flatMap (s : Str) (f : Char → Str) (c : Char) (new : Str) :
    replace (s.flatMap f) c new = s.flatMap fun d => replace (f d) c new := by
  unfold replace; rw [List.flatMap_assoc]

/-! ### mapM in `Except` -/

theorem mapM_ok_iff {ε α β : Type} {f : α → Except ε β} {l : List α} {r : List β} :
    l.mapM f = .ok r ↔ List.Forall₂ (fun a b => f a = .ok b) l r := by
  induction l generalizing r with
  | nil =>
    simp only [List.mapM_nil, List.forall₂_nil_left_iff]
    constructor
    · intro h; cases h; rfl
    · rintro rfl; rfl
  | cons a l ih =>
    rw [List.mapM_cons, List.forall₂_cons_left_iff]
    cases ha : f a with
    | error e =>
      simp only [reduceCtorEq, false_and, exists_false, iff_false]
      intro h; cases h
    | ok b =>
      cases hl : l.mapM f with
      | error e =>
        constructor
        · intro h; cases h
        · rintro ⟨b', r', hb, hf, rfl⟩
          rw [ih.2 hf] at hl; cases hl
      | ok bs =>
        constructor
        · intro h
          have h' : (Except.ok (b :: bs) : Except ε (List β)) = .ok r := h
          cases h'
          exact ⟨b, bs, rfl, ih.1 hl, rfl⟩
        · rintro ⟨b', r', hb, hf, rfl⟩
          cases hb
          rw [ih.2 hf] at hl; cases hl
          rfl

theorem mapM_ok_length {ε α β : Type} {f : α → Except ε β} {l : List α} {r : List β} (h : l.mapM f = .ok r) :
    r.length = l.length := (mapM_ok_iff.1 h).length_eq.symm

/-- success of a `mapM` -/
theorem mapM_ok_exists {ε α β : Type} {f : α → Except ε β} {l : List α} :
    (∃ r, l.mapM f = .ok r) ↔ ∀ a ∈ l, ∃ b, f a = .ok b := by
  induction l with
  | nil => simp only [List.mapM_nil, List.not_mem_nil, false_implies, implies_true, iff_true]; exact ⟨[], rfl⟩
  | cons a l ih =>
    constructor
    · rintro ⟨r, hr⟩
      rw [mapM_ok_iff, List.forall₂_cons_left_iff] at hr
      obtain ⟨b, u, h1, h2, -⟩ := hr
      intro x hx
      rcases List.mem_cons.1 hx with rfl | hx
      · exact ⟨b, h1⟩
      · exact ih.1 ⟨u, mapM_ok_iff.2 h2⟩ x hx
    · intro h
      obtain ⟨b, hb⟩ := h a (by simp)
      obtain ⟨u, hu⟩ := ih.2 fun x hx => h x (by simp [hx])
      exact ⟨b :: u, mapM_ok_iff.2 (.cons hb (mapM_ok_iff.1 hu))⟩

/-- an exception escaping from a `mapM` comes from one of the calls -/
theorem mapM_error {ε α β : Type} {f : α → Except ε β} {l : List α} {e : ε} (h : l.mapM f = .error e) :
    ∃ a ∈ l, f a = .error e := by
  induction l with
  | nil => cases h
  | cons a l ih =>
    rw [List.mapM_cons] at h
    cases ha : f a with
    | error e' =>
      rw [ha] at h
      have : (Except.error e' : Except ε (List β)) = .error e := h
      cases this; exact ⟨a, by simp, ha⟩
    | ok b =>
      rw [ha] at h
      cases hl : l.mapM f with
      | error e' =>
        rw [hl] at h
        have : (Except.error e' : Except ε (List β)) = .error e := h
        cases this
        obtain ⟨x, hx, hx'⟩ := ih hl
        exact ⟨x, by simp [hx], hx'⟩
      | ok bs => rw [hl] at h; cases h

theorem mapM_congr {ε α β : Type} {f g : α → Except ε β} {l : List α} (h : ∀ a ∈ l, f a = g a) : l.mapM f = l.mapM g := by
  induction l with
  | nil => rfl
  | cons a l ih => rw [List.mapM_cons, List.mapM_cons, h a (by simp), ih fun x hx => h x (by simp [hx])]

theorem mapM_ok_map {ε α β : Type} (f : α → β) (l : List α) :
    l.mapM (fun a => (.ok (f a) : Except ε β)) = .ok (l.map f) := by
  rw [mapM_ok_iff]
  induction l with
  | nil => exact .nil
  | cons a l ih => exact .cons rfl ih

/-! ### dictionaries -/

theorem keys_dictSet {α : Type*} (d : List (Str × α)) (k : Str) (v : α) :
    (dictSet d k v).map Prod.fst = if k ∈ d.map Prod.fst then d.map Prod.fst else d.map Prod.fst ++ [k] := by
  induction d with
  | nil => simp [dictSet]
  | cons p d ih =>
    obtain ⟨k', v'⟩ := p
    rw [dictSet]
    by_cases h : k' = k
    · simp [h]
    · have h' : k ≠ k' := fun e => h e.symm
      rw [if_neg h, List.map_cons, ih]
      by_cases hm : k ∈ d.map Prod.fst
      · simp only [if_pos hm, List.map_cons, List.mem_cons, hm, or_true, if_true]
      · simp only [if_neg hm, List.map_cons, List.mem_cons, hm, h', or_self, if_false, List.cons_append]

theorem lookup_dictSet {α : Type*} (d : List (Str × α)) (k : Str) (v : α) (k' : Str) :
    (dictSet d k v).lookup k' = if k' = k then some v else d.lookup k' := by
  induction d with
  | nil =>
    rw [dictSet, List.lookup_cons]
    by_cases h : k' = k
    · simp [h]
    · have : (k' == k) = false := by simpa using h
      simp [this, h]
  | cons p d ih =>
    obtain ⟨k₀, v₀⟩ := p
    rw [dictSet]
    by_cases h : k₀ = k
    · rw [if_pos h, List.lookup_cons, List.lookup_cons]
      subst h
      by_cases h2 : k' = k₀
      · simp [h2]
      · have : (k' == k₀) = false := by simpa using h2
        simp [this, h2]
    · rw [if_neg h, List.lookup_cons, List.lookup_cons, ih]
      by_cases h2 : k' = k₀
      · subst h2; simp [h]
      · have : (k' == k₀) = false := by simpa using h2
        simp [this]

theorem keys_fold {α : Type*} (es : List (Str × α)) :
    (es.foldl (fun d e => dictSet d e.1 e.2) []).map Prod.fst = (es.map Prod.fst).eraseDups := by
  induction es using List.reverseRecOn with
  | nil => rfl
  | append_singleton es e ih =>
    rw [List.foldl_append, List.foldl_cons, List.foldl_nil, keys_dictSet, ih, List.map_append, List.eraseDups_append]
    by_cases h : e.1 ∈ es.map Prod.fst
    · rw [if_pos (by rw [List.mem_eraseDups]; exact h)]
      have : ([e].map Prod.fst).removeAll (es.map Prod.fst) = [] := by
        simp only [List.removeAll, List.map_cons, List.map_nil, List.filter_cons, List.filter_nil]
        simp [h]
      rw [this]; simp
    · rw [if_neg (by rw [List.mem_eraseDups]; exact h)]
      have : ([e].map Prod.fst).removeAll (es.map Prod.fst) = [e.1] := by
        simp only [List.removeAll, List.map_cons, List.map_nil, List.filter_cons, List.filter_nil]
        rw [if_pos (by simpa using h)]
      rw [this]; rfl

theorem lookup_fold {α : Type*} (es : List (Str × α)) (k : Str) :
    (es.foldl (fun d e => dictSet d e.1 e.2) []).lookup k = es.reverse.lookup k := by
  induction es using List.reverseRecOn with
  | nil => rfl
  | append_singleton es e ih =>
    rw [List.foldl_append, List.foldl_cons, List.foldl_nil, lookup_dictSet, ih, List.reverse_append, List.reverse_singleton,
      List.singleton_append, List.lookup_cons]
    by_cases h : k = e.1
    · simp [h]
    · have : (k == e.1) = false := by simpa using h
      simp [this, h]

/-! ### splitting -/

theorem mem_takeWhile_imp {α : Type*} {p : α → Bool} {l : List α} {x : α} (h : x ∈ l.takeWhile p) : p x = true := by
  induction l with
  | nil => simp at h
  | cons a l ih =>
    rw [List.takeWhile_cons] at h
    split_ifs at h with ha
    · rcases List.mem_cons.1 h with rfl | h
      · exact ha
      · exact ih h
    · simp at h


theorem not_mem_of_mem_splitOn {c : Char} (s : Str) : ∀ p ∈ s.splitOn c, c ∉ p := by
  induction s with
  | nil => intro p hp; simp at hp; simp [hp]
  | cons a s ih =>
    intro p hp
    rw [List.splitOn_cons_eq_if_modifyHead] at hp
    split_ifs at hp with h
    · rcases List.mem_cons.1 hp with rfl | hp
      · simp
      · exact ih p hp
    · cases hs : s.splitOn c with
      | nil => exact absurd hs (List.splitOn_ne_nil _ _)
      | cons q qs =>
        rw [hs, List.modifyHead_cons] at hp
        rw [hs] at ih
        rcases List.mem_cons.1 hp with rfl | hp
        · have := ih q (by simp)
          have hac : ¬ c = a := fun e => h (by simp [e])
          simp [this, hac]
        · exact ih p (by simp [hp])

theorem splitOn_pair_iff {c : Char} {s a b : Str} :
    s.splitOn c = [a, b] ↔ s = a ++ c :: b ∧ c ∉ a ∧ c ∉ b := by
  constructor
  · intro h
    have h1 := List.intercalate_splitOn (xs := s) c
    rw [h] at h1
    have hm := not_mem_of_mem_splitOn (c := c) s
    rw [h] at hm
    refine ⟨?_, hm a (by simp), hm b (by simp)⟩
    rw [← h1]; simp [List.intercalate, List.intersperse]
  · rintro ⟨rfl, ha, hb⟩
    rw [List.splitOn_append_cons_self_of_not_mem ha, List.splitOn_eq_singleton hb]

/-! ### namedtuples -/

theorem lookup_zip_map {α : Type*} (l : List Str) (f : Str → α) {x : Str} (hx : x ∈ l) :
    (l.zip (l.map f)).lookup x = some (f x) := by
  induction l with
  | nil => simp at hx
  | cons a l ih =>
    rw [List.map_cons, List.zip_cons_cons, List.lookup_cons]
    by_cases h : x = a
    · subst h; simp
    · have : (x == a) = false := by simpa using h
      rw [this]
      exact ih ((List.mem_cons.1 hx).resolve_left h)

theorem lookup_zip_idxOf {α : Type*} (l : List Str) (v : List α) (hv : v.length = l.length) {x : Str} (hx : x ∈ l) :
    (l.zip v).lookup x = v[l.idxOf x]? := by
  induction l generalizing v with
  | nil => simp at hx
  | cons a l ih =>
    cases v with
    | nil => simp at hv
    | cons b v =>
      rw [List.zip_cons_cons, List.lookup_cons]
      by_cases h : x = a
      · subst h; simp
      · have : (x == a) = false := by simpa using h
        rw [this, ih v (by simpa using hv) ((List.mem_cons.1 hx).resolve_left h), List.idxOf_cons_ne]
        · simp
        · exact fun e => h e.symm

theorem lookup_zip_isSome {α : Type*} (l : List Str) (v : List α) (hv : v.length = l.length) {x : Str} (hx : x ∈ l) :
    ∃ y, (l.zip v).lookup x = some y := by
  rw [lookup_zip_idxOf l v hv hx]
  have : l.idxOf x < v.length := by rw [hv]; exact List.idxOf_lt_length_iff.2 hx
  exact ⟨v[l.idxOf x], List.getElem?_eq_getElem this⟩

theorem lookup_zip_none {α : Type*} (l : List Str) (v : List α) {x : Str} (hx : x ∉ l) :
    (l.zip v).lookup x = none := by
  induction l generalizing v with
  | nil => simp
  | cons a l ih =>
    cases v with
    | nil => simp
    | cons b v =>
      rw [List.zip_cons_cons, List.lookup_cons]
      have h : (x == a) = false := by simp only [List.mem_cons, not_or] at hx; simpa using hx.1
      rw [h]
      exact ih v fun hm => hx (by simp [hm])

/-- reading all the fields back gives the values -/
theorem map_lookup_self {α : Type*} (l : List Str) (v : List α) (hn : l.Nodup) (hv : v.length = l.length) :
    List.Forall₂ (fun n x => (l.zip v).lookup n = some x) l v := by
  rw [List.forall₂_iff_get]
  refine ⟨hv.symm, fun i h1 h2 => ?_⟩
  rw [lookup_zip_idxOf l v hv (List.get_mem _ _)]
  simp only [List.get_eq_getElem]
  rw [hn.idxOf_getElem i h1]
  exact List.getElem?_eq_getElem h2

end Dsps.Lemmas
