import Verif.Model.NdElem
import Verif.Lemmas.Nd

/-! Broadcasting of any number of arrays of any shapes: the declarative rule, and that chains of binary operations obey it. -/
namespace Nd
open Py

/-! ### The rule -/

/-- numpy's broadcasting rule for a collection `S` of shapes, axis by axis counted from the last one: on each axis of the result, every shape that
has this axis has length one or the length of the result there, and some shape has the length of the result; no shape has more axes. -/
def Broadcasts (S : Set (List ℕ)) (out : List ℕ) : Prop :=
  ∀ k : ℕ, match out.reverse[k]? with
    | none => ∀ s ∈ S, s.reverse[k]? = none
    | some n => (∀ s ∈ S, ∀ m, s.reverse[k]? = some m → m = 1 ∨ m = n) ∧ ∃ s ∈ S, s.reverse[k]? = some n

/-- the element of `a` that an element-wise operation uses at position `idx` of its result -/
def Arr.bat {α : Type} (a : Arr α) (idx : List ℕ) : α := a.dat (bcIdx a.shape idx)

/-- `idx` is a position of an array of shape `out` -/
def Pos (out idx : List ℕ) : Prop := List.Forall₂ (· < ·) idx out

/-- a call is element-wise in arguments of shapes `S`: if the shapes broadcast, it returns an array of the broadcast shape whose element at each position
is `val` of that position, and it raises if they do not -/
def Elementwise (S : List (List ℕ)) (r : Except PyErr (Arr ℝ)) (val : List ℕ → ℝ) : Prop :=
  (∀ out, Broadcasts {s | s ∈ S} out → ∃ a, r = .ok a ∧ a.shape = out ∧ ∀ idx, Pos out idx → a.dat idx = val idx) ∧
  ((∀ out, ¬ Broadcasts {s | s ∈ S} out) → Raises r)

/-! ### Recursive form on reversed shapes -/

def tails (S : Set (List ℕ)) : Set (List ℕ) := {t | ∃ n, n :: t ∈ S}

theorem tails_union (S T : Set (List ℕ)) : tails (S ∪ T) = tails S ∪ tails T := by
  ext t; simp only [tails, Set.mem_setOf_eq, Set.mem_union]
  constructor
  · rintro ⟨n, h | h⟩
    · exact .inl ⟨n, h⟩
    · exact .inr ⟨n, h⟩
  · rintro (⟨n, h⟩ | ⟨n, h⟩)
    · exact ⟨n, .inl h⟩
    · exact ⟨n, .inr h⟩

theorem tails_mono {S T : Set (List ℕ)} (h : S ⊆ T) : tails S ⊆ tails T := fun _ ⟨n, hn⟩ => ⟨n, h hn⟩

def BR : Set (List ℕ) → List ℕ → Prop
  | S, [] => ∀ s ∈ S, s = []
  | S, n :: o => (∀ m t, m :: t ∈ S → m = 1 ∨ m = n) ∧ (∃ t, n :: t ∈ S) ∧ BR (tails S) o

theorem BR_iff (S : Set (List ℕ)) (o : List ℕ) : BR S o ↔ ∀ k : ℕ, match o[k]? with
    | none => ∀ s ∈ S, s[k]? = none
    | some n => (∀ s ∈ S, ∀ m, s[k]? = some m → m = 1 ∨ m = n) ∧ ∃ s ∈ S, s[k]? = some n := by
  induction o generalizing S with
  | nil =>
    simp only [BR, List.getElem?_nil]
    constructor
    · intro h k s hs; simp [h s hs]
    · intro h s hs; have := h 0 s hs; cases s <;> simp_all
  | cons n o ih =>
    rw [BR, ih]
    constructor
    · rintro ⟨h1, ⟨t, ht⟩, h3⟩ k
      cases k with
      | zero =>
        simp only [List.getElem?_cons_zero]
        refine ⟨fun s hs m hm => ?_, n :: t, ht, rfl⟩
        cases s with
        | nil => simp at hm
        | cons a s => simp only [List.getElem?_cons_zero, Option.some.injEq] at hm; subst hm; exact h1 _ _ hs
      | succ k =>
        have hk := h3 k
        simp only [List.getElem?_cons_succ]
        cases ho : o[k]? with
        | none =>
          rw [ho] at hk
          intro s hs
          cases s with
          | nil => rfl
          | cons a s => simpa using hk s ⟨a, hs⟩
        | some m =>
          rw [ho] at hk
          obtain ⟨k1, u, ⟨a, hu⟩, ku⟩ := hk
          refine ⟨fun s hs q hq => ?_, a :: u, hu, by simpa using ku⟩
          cases s with
          | nil => simp at hq
          | cons a s => exact k1 s ⟨a, hs⟩ q (by simpa using hq)
    · intro h
      have h0 := h 0
      simp only [List.getElem?_cons_zero] at h0
      refine ⟨fun m t hm => h0.1 _ hm m (by simp), ?_, fun k => ?_⟩
      · obtain ⟨s, hs, hn⟩ := h0.2
        cases s with
        | nil => simp at hn
        | cons a s => simp only [List.getElem?_cons_zero, Option.some.injEq] at hn; subst hn; exact ⟨s, hs⟩
      · have hk := h (k + 1)
        simp only [List.getElem?_cons_succ] at hk
        cases ho : o[k]? with
        | none =>
          rw [ho] at hk
          rintro s ⟨a, hs⟩
          simpa using hk _ hs
        | some m =>
          rw [ho] at hk
          obtain ⟨k1, u, hu, ku⟩ := hk
          refine ⟨?_, ?_⟩
          · rintro s ⟨a, hs⟩ q hq
            exact k1 _ hs q (by simpa using hq)
          · cases u with
            | nil => simp at ku
            | cons a u => exact ⟨u, ⟨a, hu⟩, by simpa using ku⟩

theorem Broadcasts_iff (S : Set (List ℕ)) (out : List ℕ) : Broadcasts S out ↔ BR (List.reverse '' S) out.reverse := by
  rw [BR_iff]
  refine forall_congr' fun k => ?_
  cases out.reverse[k]? <;> simp

theorem BR.sub {S T : Set (List ℕ)} {o : List ℕ} (h : BR S o) (hT : T ⊆ S) : ∃ o', BR T o' := by
  induction o generalizing S T with
  | nil => exact ⟨[], fun s hs => h s (hT hs)⟩
  | cons n o ih =>
    obtain ⟨h1, h2, h3⟩ := h
    by_cases hall : ∀ s ∈ T, s = []
    · exact ⟨[], hall⟩
    push Not at hall
    obtain ⟨s, hs, hne⟩ := hall
    obtain ⟨o', ho'⟩ := ih h3 (tails_mono hT)
    by_cases hn : ∃ t, n :: t ∈ T
    · exact ⟨n :: o', fun m t hm => h1 m t (hT hm), hn, ho'⟩
    · have h1' : ∀ m t, m :: t ∈ T → m = 1 := by
        intro m t hm
        rcases h1 m t (hT hm) with h | h
        · exact h
        · subst h; exact absurd ⟨t, hm⟩ hn
      cases s with
      | nil => exact absurd rfl hne
      | cons a s =>
        have := h1' a s hs
        subst this
        exact ⟨1 :: o', fun m t hm => .inl (h1' m t hm), ⟨s, hs⟩, ho'⟩

theorem BR.unique {S : Set (List ℕ)} {o o' : List ℕ} (h : BR S o) (h' : BR S o') : o = o' := by
  induction o generalizing S o' with
  | nil =>
    cases o' with
    | nil => rfl
    | cons n o' => obtain ⟨-, ⟨t, ht⟩, -⟩ := h'; have := h _ ht; simp at this
  | cons n o ih =>
    obtain ⟨h1, ⟨t, ht⟩, h3⟩ := h
    cases o' with
    | nil => have := h' _ ht; simp at this
    | cons n' o' =>
      obtain ⟨k1, ⟨u, hu⟩, k3⟩ := h'
      have e : n = n' := by
        rcases h1 _ _ hu with h | h <;> rcases k1 _ _ ht with k | k <;> omega
      rw [e, ih h3 k3]

theorem BR.nils {S T : Set (List ℕ)} {b : List ℕ} (hS : ∀ s ∈ S, s = []) : BR (S ∪ T) b ↔ BR T b := by
  cases b with
  | nil =>
    constructor
    · intro h s hs; exact h s (.inr hs)
    · rintro h s (hs | hs)
      · exact hS s hs
      · exact h s hs
  | cons n o =>
    have hmem : ∀ m t, m :: t ∈ S ∪ T ↔ m :: t ∈ T := by
      intro m t
      constructor
      · rintro (h | h)
        · have := hS _ h; simp at this
        · exact h
      · exact .inr
    have ht : tails (S ∪ T) = tails T := by
      ext t; simp only [tails, Set.mem_setOf_eq, hmem]
    simp only [BR, hmem, ht]

theorem BR.union {S T : Set (List ℕ)} {a b : List ℕ} (hS : BR S a) (hT : BR T b) :
    match bcRev a b with
    | .ok c => BR (S ∪ T) c
    | .error _ => ∀ c, ¬ BR (S ∪ T) c := by
  induction a generalizing S T b with
  | nil => rw [bcRev]; exact (BR.nils hS).2 hT
  | cons x a ih =>
    cases b with
    | nil => rw [bcRev]; simp only; rw [Set.union_comm]; exact (BR.nils hT).2 hS
    | cons y b =>
      obtain ⟨h1, ⟨t, ht⟩, h3⟩ := hS
      obtain ⟨k1, ⟨u, hu⟩, k3⟩ := hT
      have hi := ih h3 k3
      rw [← tails_union] at hi
      rw [bcRev]
      by_cases c1 : x = y ∨ y = 1
      · rw [if_pos c1]
        cases hb : bcRev a b with
        | ok c =>
          rw [hb] at hi
          simp only [Except.map]
          refine ⟨?_, ⟨t, .inl ht⟩, hi⟩
          rintro m v (hm | hm)
          · exact h1 _ _ hm
          · rcases k1 _ _ hm with h | h <;> omega
        | error e =>
          rw [hb] at hi
          simp only [Except.map]
          intro c hc
          cases c with
          | nil => have := hc _ (.inl ht); simp at this
          | cons n o => exact hi o hc.2.2
      · rw [if_neg c1]
        push Not at c1
        by_cases c2 : x = 1
        · rw [if_pos c2]
          cases hb : bcRev a b with
          | ok c =>
            rw [hb] at hi
            simp only [Except.map]
            refine ⟨?_, ⟨u, .inr hu⟩, hi⟩
            rintro m v (hm | hm)
            · rcases h1 _ _ hm with h | h <;> omega
            · exact k1 _ _ hm
          | error e =>
            rw [hb] at hi
            simp only [Except.map]
            intro c hc
            cases c with
            | nil => have := hc _ (.inl ht); simp at this
            | cons n o => exact hi o hc.2.2
        · rw [if_neg c2]
          intro c hc
          cases c with
          | nil => have := hc _ (.inl ht); simp at this
          | cons n o =>
            obtain ⟨q1, -, -⟩ := hc
            have := q1 _ _ (.inl ht)
            have := q1 _ _ (.inr hu)
            omega

/-! ### The rule for shapes -/

theorem Broadcasts.sub {S T : Set (List ℕ)} {o : List ℕ} (h : Broadcasts S o) (hT : T ⊆ S) : ∃ o', Broadcasts T o' := by
  rw [Broadcasts_iff] at h
  obtain ⟨o', ho'⟩ := h.sub (Set.image_mono hT)
  exact ⟨o'.reverse, by rw [Broadcasts_iff, List.reverse_reverse]; exact ho'⟩

theorem Broadcasts.unique {S : Set (List ℕ)} {o o' : List ℕ} (h : Broadcasts S o) (h' : Broadcasts S o') : o = o' := by
  rw [Broadcasts_iff] at h h'
  exact List.reverse_injective (h.unique h')

theorem Broadcasts.union {S T : Set (List ℕ)} {a b : List ℕ} (hS : Broadcasts S a) (hT : Broadcasts T b) :
    match bcShape a b with
    | .ok c => Broadcasts (S ∪ T) c
    | .error _ => ∀ c, ¬ Broadcasts (S ∪ T) c := by
  rw [Broadcasts_iff] at hS hT
  have h := hS.union hT
  rw [← Set.image_union] at h
  unfold bcShape
  cases hb : bcRev a.reverse b.reverse with
  | ok c =>
    rw [hb] at h
    simp only [Except.map]
    rw [Broadcasts_iff, List.reverse_reverse]; exact h
  | error e =>
    rw [hb] at h
    simp only [Except.map]
    intro c hc
    exact h _ ((Broadcasts_iff _ _).1 hc)

theorem Broadcasts.singleton (s : List ℕ) : Broadcasts {s} s := by
  intro k
  cases h : s.reverse[k]? with
  | none => rintro _ rfl; exact h
  | some n =>
    refine ⟨?_, s, rfl, h⟩
    rintro _ rfl m hm
    rw [h] at hm; simp at hm; exact .inr hm.symm

theorem Broadcasts.empty : Broadcasts ∅ [] := by intro k; simp

/-! ### Indices -/

def bR (s idx : List ℕ) : List ℕ := List.zipWith (fun d i => if d = 1 then 0 else i) s idx

theorem bcIdx_reverse {s idx : List ℕ} (h : s.length ≤ idx.length) : (bcIdx s idx).reverse = bR s.reverse idx.reverse := by
  unfold bcIdx bR
  rw [List.map_zip_eq_zipWith, List.reverse_zipWith (by simp; omega), List.reverse_drop]
  have e : idx.length - (idx.length - s.length) = s.reverse.length := by simp; omega
  rw [e]
  conv_rhs => rw [List.zipWith_eq_zipWith_take_min]
  have e2 : min s.reverse.length idx.reverse.length = s.reverse.length := by simp; omega
  rw [e2, List.take_length]
  rfl

theorem bR_bR {s o idx : List ℕ} (hl : s.length ≤ o.length)
    (h : ∀ k m n : ℕ, s[k]? = some m → o[k]? = some n → m = 1 ∨ m = n) (hi : o.length ≤ idx.length) : bR s (bR o idx) = bR s idx := by
  induction s generalizing o idx with
  | nil => simp [bR]
  | cons d s ih =>
    cases o with
    | nil => simp at hl
    | cons n o =>
      cases idx with
      | nil => simp at hi
      | cons i idx =>
        have := ih (o := o) (idx := idx) (by simpa using hl) (fun k m n hm hn => h (k + 1) m n (by simpa using hm) (by simpa using hn)) (by simpa using hi)
        simp only [bR] at this ⊢
        simp only [List.zipWith_cons_cons, this, List.cons.injEq, and_true]
        have h0 := h 0 d n rfl rfl
        split_ifs <;> first | rfl | omega

theorem Broadcasts.fits {S : Set (List ℕ)} {out s : List ℕ} (h : Broadcasts S out) (hs : s ∈ S) :
    s.length ≤ out.length ∧ ∀ k m n : ℕ, s.reverse[k]? = some m → out.reverse[k]? = some n → m = 1 ∨ m = n := by
  constructor
  · have := h out.length
    rw [List.getElem?_eq_none (by simp)] at this
    have := this s hs
    rw [List.getElem?_eq_none_iff] at this
    simpa using this
  · intro k m n hm hn
    have := h k
    rw [hn] at this
    exact this.1 s hs m hm

theorem bcIdx_bcIdx {S : Set (List ℕ)} {out s idx : List ℕ} (h : Broadcasts S out) (hs : s ∈ S) (hi : out.length ≤ idx.length) :
    bcIdx s (bcIdx out idx) = bcIdx s idx := by
  obtain ⟨h1, h2⟩ := h.fits hs
  have hl : (bcIdx out idx).length = out.length := by simp [bcIdx]; omega
  apply List.reverse_injective
  rw [bcIdx_reverse (by omega), bcIdx_reverse hi, bcIdx_reverse (by omega)]
  exact bR_bR (by simpa using h1) h2 (by simpa using hi)

theorem Pos.length {out idx : List ℕ} (h : Pos out idx) : idx.length = out.length := List.Forall₂.length_eq h

theorem bcIdx_pos {out idx : List ℕ} (h : Pos out idx) : bcIdx out idx = idx := by
  have hl := h.length
  unfold bcIdx
  rw [hl, Nat.sub_self, List.drop_zero]
  unfold Pos at h
  clear hl
  induction h with
  | nil => rfl
  | cons h _ ih =>
    simp only [List.zip_cons_cons, List.map_cons, ih, List.cons.injEq, and_true]
    split_ifs <;> omega

/-! ### Element-wise expressions -/

variable {α β γ : Type}

/-- `r` is an element-wise expression in arrays of shapes `S`, with value `g` -/
def Elw (S : Set (List ℕ)) (g : List ℕ → α) (r : Except PyErr (Arr α)) : Prop :=
  (∀ out, Broadcasts S out → ∃ a, r = .ok a ∧ a.shape = out ∧ ∀ idx, out.length ≤ idx.length → a.dat (bcIdx out idx) = g idx) ∧
  ((∀ out, ¬ Broadcasts S out) → Raises r)

theorem Elw.congr {S S' : Set (List ℕ)} {g g' : List ℕ → α} {r : Except PyErr (Arr α)} (h : Elw S g r) (hS : S = S') (hg : ∀ i, g i = g' i) :
    Elw S' g' r := by
  obtain rfl : g = g' := funext hg
  subst hS; exact h

theorem Elw.ret (x : α) : Elw ∅ (fun _ => x) (.ok (scal x)) := by
  refine ⟨fun out h => ⟨_, rfl, Broadcasts.empty.unique h, fun _ _ => rfl⟩, fun h => absurd Broadcasts.empty (h _)⟩

theorem Elw.lit (x : ℝ) : Elw ∅ (fun _ => x) (E.lit x) := Elw.ret x

theorem Elw.arr (a : Arr ℝ) : Elw {a.shape} a.bat (E.arr a) := by
  refine ⟨fun out h => ⟨a, rfl, (Broadcasts.singleton _).unique h, fun idx _ => ?_⟩, fun h => absurd (Broadcasts.singleton _) (h _)⟩
  rw [← (Broadcasts.singleton _).unique h]; rfl

theorem Elw.map {S : Set (List ℕ)} {g : List ℕ → α} {r : Except PyErr (Arr α)} (h : Elw S g r) (f : α → β) :
    Elw S (fun i => f (g i)) (Except.bind r fun x => .ok (Nd.map f x)) := by
  refine ⟨fun out ho => ?_, fun ho => ?_⟩
  · obtain ⟨a, rfl, hs, hd⟩ := h.1 out ho
    exact ⟨_, rfl, hs, fun idx hi => by simp [Nd.map, hd idx hi]⟩
  · obtain ⟨e, rfl⟩ := h.2 ho
    exact ⟨e, rfl⟩

theorem Elw.map2 {S T : Set (List ℕ)} {g : List ℕ → α} {h : List ℕ → β} {r : Except PyErr (Arr α)} {q : Except PyErr (Arr β)}
    (hr : Elw S g r) (hq : Elw T h q) (f : α → β → γ) :
    Elw (S ∪ T) (fun i => f (g i) (h i)) (Except.bind r fun x => Except.bind q fun y => Nd.map2 f x y) := by
  by_cases hS : ∃ o, Broadcasts S o
  · obtain ⟨o1, ho1⟩ := hS
    obtain ⟨a, rfl, hs, hd⟩ := hr.1 o1 ho1
    by_cases hT : ∃ o, Broadcasts T o
    · obtain ⟨o2, ho2⟩ := hT
      obtain ⟨b, rfl, hs', hd'⟩ := hq.1 o2 ho2
      have hu := ho1.union ho2
      simp only [Except.bind, Nd.map2, hs, hs']
      cases hb : bcShape o1 o2 with
      | ok c =>
        rw [hb] at hu
        refine ⟨fun out ho => ⟨_, rfl, hu.unique ho, fun idx hi => ?_⟩, fun hn => absurd hu (hn _)⟩
        obtain rfl := hu.unique ho
        have hc : Broadcasts ({o1} ∪ {o2}) c := by
          have := (Broadcasts.singleton o1).union (Broadcasts.singleton o2)
          rw [hb] at this; exact this
        have l1 := (hc.fits (s := o1) (by simp)).1
        have l2 := (hc.fits (s := o2) (by simp)).1
        dsimp only
        rw [bcIdx_bcIdx (s := o1) hc (by simp) hi, bcIdx_bcIdx (s := o2) hc (by simp) hi,
          hd idx (l1.trans hi), hd' idx (l2.trans hi)]
      | error e =>
        rw [hb] at hu
        exact ⟨fun out ho => absurd ho (hu _), fun _ => ⟨e, rfl⟩⟩
    · obtain ⟨e, rfl⟩ := hq.2 (fun o ho => hT ⟨o, ho⟩)
      exact ⟨fun out ho => absurd (ho.sub Set.subset_union_right) hT, fun _ => ⟨e, rfl⟩⟩
  · obtain ⟨e, rfl⟩ := hr.2 (fun o ho => hS ⟨o, ho⟩)
    exact ⟨fun out ho => absurd (ho.sub Set.subset_union_left) hS, fun _ => ⟨e, rfl⟩⟩

open Classical in
theorem Elw.where_ {S T U : Set (List ℕ)} {c : List ℕ → Prop} {g h : List ℕ → ℝ} {m : EP} {x y : E} (hm : Elw S c m) (hx : Elw T g x)
    (hy : Elw U h y) : Elw (S ∪ (T ∪ U)) (fun i => if c i then g i else h i) (E.where_ m x y) := by
  have h1 := hx.map2 hy Prod.mk
  have h2 := hm.map2 h1 (fun (c : Prop) (p : ℝ × ℝ) => if c then p.1 else p.2)
  refine h2.congr rfl (fun i => rfl) |> fun h => ?_
  have e : (Except.bind (m : Except PyErr (Arr Prop)) fun z => Except.bind (Except.bind (x : Except PyErr (Arr ℝ)) fun a => Except.bind (y : Except PyErr (Arr ℝ)) fun b => Nd.map2 Prod.mk a b)
      fun p => Nd.map2 (fun (c : Prop) (p : ℝ × ℝ) => if c then p.1 else p.2) z p) = E.where_ m x y := by
    unfold E.where_ Nd.where_
    cases m with
    | error e => rfl
    | ok m =>
      cases x with
      | error e => rfl
      | ok x =>
        cases y with
        | error e => rfl
        | ok y => rfl
  rw [← e]; exact h

theorem Elw.zerosLike {S : Set (List ℕ)} {g : List ℕ → ℝ} {x : E} (h : Elw S g x) : Elw S (fun _ => 0) (E.zerosLike x) := h.map fun _ => 0

section ops
variable {S T : Set (List ℕ)} {g h : List ℕ → ℝ} {x y : E}

theorem Elw.add (hx : Elw S g x) (hy : Elw T h y) : Elw (S ∪ T) (fun i => g i + h i) (x + y) := hx.map2 hy _
theorem Elw.sub (hx : Elw S g x) (hy : Elw T h y) : Elw (S ∪ T) (fun i => g i - h i) (x - y) := hx.map2 hy _
theorem Elw.mul (hx : Elw S g x) (hy : Elw T h y) : Elw (S ∪ T) (fun i => g i * h i) (x * y) := hx.map2 hy _
theorem Elw.div (hx : Elw S g x) (hy : Elw T h y) : Elw (S ∪ T) (fun i => g i / h i) (x / y) := hx.map2 hy _
theorem Elw.pow (hx : Elw S g x) (hy : Elw T h y) : Elw (S ∪ T) (fun i => g i ^ h i) (x ^ y) := hx.map2 hy _
theorem Elw.neg (hx : Elw S g x) : Elw S (fun i => -g i) (-x) := hx.map _
theorem Elw.npow (hx : Elw S g x) (n : ℕ) : Elw S (fun i => g i ^ n) (x ^ n) := hx.map _
theorem Elw.exp (hx : Elw S g x) : Elw S (fun i => Real.exp (g i)) (E.exp x) := hx.map _
theorem Elw.log (hx : Elw S g x) : Elw S (fun i => Real.log (g i)) (E.log x) := hx.map _
theorem Elw.log10 (hx : Elw S g x) : Elw S (fun i => Jnp.log10 (g i)) (E.log10 x) := hx.map _
theorem Elw.sqrt (hx : Elw S g x) : Elw S (fun i => Real.sqrt (g i)) (E.sqrt x) := hx.map _
theorem Elw.nnSigmoid (hx : Elw S g x) : Elw S (fun i => Jnp.sigmoid (g i)) (E.nnSigmoid x) := hx.map _
theorem Elw.lt (hx : Elw S g x) (hy : Elw T h y) : Elw (S ∪ T) (fun i => g i < h i) (E.lt x y) := hx.map2 hy _
theorem Elw.gt (hx : Elw S g x) (hy : Elw T h y) : Elw (S ∪ T) (fun i => g i > h i) (E.gt x y) := hx.map2 hy _
theorem Elw.ofNat (n : ℕ) [OfNat ℝ n] : Elw ∅ (fun _ => (OfNat.ofNat n : ℝ)) (OfNat.ofNat n : E) := Elw.ret _
theorem Elw.ofSci (m : ℕ) (s : Bool) (e : ℕ) : Elw ∅ (fun _ => (OfScientific.ofScientific m s e : ℝ)) (OfScientific.ofScientific m s e : E) := Elw.ret _
theorem Elw.or {c d : List ℕ → Prop} {p q : EP} (hx : Elw S c p) (hy : Elw T d q) : Elw (S ∪ T) (fun i => c i ∨ d i) (E.or p q) :=
  hx.map2 hy _
end ops

/-- decompose an element-wise expression by one operation -/
syntax "elw1" : tactic
macro_rules | `(tactic| elw1) => `(tactic| with_reducible apply Elw.add)
macro_rules | `(tactic| elw1) => `(tactic| with_reducible apply Elw.sub)
macro_rules | `(tactic| elw1) => `(tactic| with_reducible apply Elw.mul)
macro_rules | `(tactic| elw1) => `(tactic| with_reducible apply Elw.div)
macro_rules | `(tactic| elw1) => `(tactic| with_reducible apply Elw.neg)
macro_rules | `(tactic| elw1) => `(tactic| with_reducible apply Elw.npow)
macro_rules | `(tactic| elw1) => `(tactic| with_reducible apply Elw.pow)
macro_rules | `(tactic| elw1) => `(tactic| with_reducible apply Elw.exp)
macro_rules | `(tactic| elw1) => `(tactic| with_reducible apply Elw.log)
macro_rules | `(tactic| elw1) => `(tactic| with_reducible apply Elw.log10)
macro_rules | `(tactic| elw1) => `(tactic| with_reducible apply Elw.sqrt)
macro_rules | `(tactic| elw1) => `(tactic| with_reducible apply Elw.nnSigmoid)
macro_rules | `(tactic| elw1) => `(tactic| with_reducible apply Elw.lt)
macro_rules | `(tactic| elw1) => `(tactic| with_reducible apply Elw.gt)
macro_rules | `(tactic| elw1) => `(tactic| with_reducible apply Elw.or)
macro_rules | `(tactic| elw1) => `(tactic| with_reducible apply Elw.where_)
macro_rules | `(tactic| elw1) => `(tactic| with_reducible apply Elw.zerosLike)
macro_rules | `(tactic| elw1) => `(tactic| with_reducible apply Elw.lit)
macro_rules | `(tactic| elw1) => `(tactic| with_reducible apply Elw.ofSci)
macro_rules | `(tactic| elw1) => `(tactic| with_reducible apply Elw.ofNat)
/-- decompose an element-wise expression -/
macro "elwf" : tactic => `(tactic| repeat (first | assumption | elw1))

theorem Elw.elementwise {L : List (List ℕ)} {S : Set (List ℕ)} {g : List ℕ → ℝ} {r : Except PyErr (Arr ℝ)} (h : Elw S g r)
    (hS : S = {s | s ∈ L}) : Elementwise L r g := by
  subst hS
  refine ⟨fun out ho => ?_, h.2⟩
  obtain ⟨a, ha, hs, hd⟩ := h.1 out ho
  refine ⟨a, ha, hs, fun idx hi => ?_⟩
  have := hd idx hi.length.ge
  rwa [bcIdx_pos hi] at this

end Nd
