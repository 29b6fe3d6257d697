import Verif.SpecIter
import Verif.Lemmas.Iter
/-! # Consumers of double-ended iterators -/

namespace OrdinalMap
variable {σ ι β γ : Type} {it : DEIter σ ι}

theorem BehavesLike.front {s : σ} {l : List ι} (h : BehavesLike it s l) :
    ∃ s', it.next s = .ok (l.head?, s') ∧ BehavesLike it s' l.tail := by
  obtain ⟨s1, h1, _⟩ := h [.front]
  cases hn : it.next s with
  | error e => simp [DEIter.run, DEIter.step, hn] at h1
  | ok p =>
    obtain ⟨o, s'⟩ := p
    have ho : o = l.head? := by
      simp [DEIter.run, DEIter.step, hn, Deque.run, Deque.step] at h1
      exact h1.1
    refine ⟨s', by rw [ho], fun ds => ?_⟩
    obtain ⟨s2, h2, _⟩ := h (.front :: ds)
    simp only [DEIter.run, DEIter.step, hn, ok_bind, Deque.run, Deque.step] at h2
    cases hr : it.run s' ds with
    | error e => simp [hr] at h2
    | ok q =>
      obtain ⟨os, s3⟩ := q
      simp [hr] at h2
      exact ⟨s3, by rw [h2.1.2], trivial⟩

theorem BehavesLike.back {s : σ} {l : List ι} (h : BehavesLike it s l) :
    ∃ s', it.nextBack s = .ok (l.getLast?, s') ∧ BehavesLike it s' l.dropLast := by
  obtain ⟨s1, h1, _⟩ := h [.back]
  cases hn : it.nextBack s with
  | error e => simp [DEIter.run, DEIter.step, hn] at h1
  | ok p =>
    obtain ⟨o, s'⟩ := p
    have ho : o = l.getLast? := by
      simp [DEIter.run, DEIter.step, hn, Deque.run, Deque.step] at h1
      exact h1.1
    refine ⟨s', by rw [ho], fun ds => ?_⟩
    obtain ⟨s2, h2, _⟩ := h (.back :: ds)
    simp only [DEIter.run, DEIter.step, hn, ok_bind, Deque.run, Deque.step] at h2
    cases hr : it.run s' ds with
    | error e => simp [hr] at h2
    | ok q =>
      obtain ⟨os, s3⟩ := q
      simp [hr] at h2
      exact ⟨s3, by rw [h2.1.2], trivial⟩

theorem BehavesLike.tryFold (f : β → ι → Except γ β) : ∀ (fuel : Nat) (l : List ι) (s : σ) (b : β),
    BehavesLike it s l → l.length < fuel →
    ∃ s', it.tryFold f fuel s b = .ok ((listTryFold f l b).1, s') ∧ BehavesLike it s' (listTryFold f l b).2 := by
  intro fuel
  induction fuel with
  | zero => intro l s b _ h; omega
  | succ fuel ih =>
    intro l s b h hl
    obtain ⟨s', h1, h2⟩ := h.front
    unfold DEIter.tryFold
    cases l with
    | nil => exact ⟨s', by simp [h1, listTryFold], h2⟩
    | cons x l =>
      simp only [h1, List.head?_cons, ok_bind, listTryFold]
      cases f b x with
      | error r => exact ⟨s', rfl, h2⟩
      | ok b => exact ih l s' b h2 (by simpa using hl)

theorem BehavesLike.tryRfold (f : β → ι → Except γ β) : ∀ (fuel : Nat) (l : List ι) (s : σ) (b : β),
    BehavesLike it s l.reverse → l.length < fuel →
    ∃ s', it.tryRfold f fuel s b = .ok ((listTryFold f l b).1, s') ∧
      BehavesLike it s' (listTryFold f l b).2.reverse := by
  intro fuel
  induction fuel with
  | zero => intro l s b _ h; omega
  | succ fuel ih =>
    intro l s b h hl
    obtain ⟨s', h1, h2⟩ := h.back
    unfold DEIter.tryRfold
    cases l with
    | nil => exact ⟨s', by simp [h1, listTryFold], h2⟩
    | cons x l =>
      simp only [List.reverse_cons, List.getLast?_append, List.getLast?_singleton, Option.some_or,
        List.dropLast_concat] at h1 h2
      simp only [h1, ok_bind, listTryFold]
      cases f b x with
      | error r => exact ⟨s', rfl, h2⟩
      | ok b => exact ih l s' b h2 (by simpa using hl)

theorem BehavesLike.nth : ∀ (k : Nat) (l : List ι) (s : σ), BehavesLike it s l →
    ∃ s', it.nth k s = .ok (l[k]?, s') ∧ BehavesLike it s' (l.drop (k + 1)) := by
  intro k
  induction k with
  | zero =>
    intro l s h
    obtain ⟨s', h1, h2⟩ := h.front
    refine ⟨s', by rw [DEIter.nth, h1, List.head?_eq_getElem?], by simpa using h2⟩
  | succ k ih =>
    intro l s h
    obtain ⟨s', h1, h2⟩ := h.front
    unfold DEIter.nth
    cases l with
    | nil => exact ⟨s', by simp [h1], h2⟩
    | cons x l =>
      simp only [h1, List.head?_cons, ok_bind]
      simpa using ih l s' h2

theorem BehavesLike.nthBack : ∀ (k : Nat) (l : List ι) (s : σ), BehavesLike it s l.reverse →
    ∃ s', it.nthBack k s = .ok (l[k]?, s') ∧ BehavesLike it s' (l.drop (k + 1)).reverse := by
  intro k
  induction k with
  | zero =>
    intro l s h
    obtain ⟨s', h1, h2⟩ := h.back
    refine ⟨s', by simp [DEIter.nthBack, h1, List.head?_eq_getElem?], ?_⟩
    cases l with
    | nil => exact h2
    | cons x l => simpa using h2
  | succ k ih =>
    intro l s h
    obtain ⟨s', h1, h2⟩ := h.back
    unfold DEIter.nthBack
    cases l with
    | nil => exact ⟨s', by simp [h1], h2⟩
    | cons x l =>
      simp only [List.reverse_cons, List.getLast?_append, List.getLast?_singleton, Option.some_or,
        List.dropLast_concat] at h1 h2
      simp only [h1, ok_bind]
      simpa using ih l s' h2

theorem listTryFold_collect (l : List ι) : ∀ acc : List ι,
    (listTryFold (γ := Empty) (fun l x => .ok (l ++ [x])) l acc).1 = .ok (acc ++ l) := by
  induction l with
  | nil => intro acc; simp [listTryFold]
  | cons x l ih => intro acc; simp [listTryFold, ih]

theorem listTryFold_count (l : List ι) : ∀ k : Nat,
    (listTryFold (γ := Empty) (fun k _ => .ok (k + 1)) l k).1 = .ok (k + l.length) := by
  induction l with
  | nil => intro acc; simp [listTryFold]
  | cons x l ih => intro k; simp [listTryFold, ih]; omega

theorem listTryFold_last (l : List ι) : ∀ o : Option ι,
    (listTryFold (γ := Empty) (fun _ x => .ok (some x)) l o).1 = .ok (l.getLast?.or o) := by
  induction l with
  | nil => intro o; simp [listTryFold]
  | cons x l ih =>
    intro o
    simp only [listTryFold, ih]
    cases l <;> simp [List.getLast?_cons]

theorem listTryFold_find (p : ι → Bool) (l : List ι) :
    (listTryFold (fun () x => if p x then .error x else .ok ()) l ()).1 =
      match l.find? p with
      | some x => .error x
      | none => .ok () := by
  induction l with
  | nil => rfl
  | cons x l ih =>
    simp only [listTryFold, List.find?_cons]
    cases p x with
    | true => rfl
    | false => exact ih

theorem BehavesLike.yields {s : σ} {l : List ι} {obs : List ι → σ → Prop} (h : BehavesLike it s l obs) :
    Yields it s l := by
  replace h : BehavesLike it s l := h.mono fun _ _ _ => trivial
  have hr : BehavesLike it s l.reverse.reverse := by rwa [List.reverse_reverse]
  refine ⟨fun fuel hf => ?_, fun fuel hf => ?_, fun fuel hf => ?_, fun fuel hf => ?_, fun p fuel hf => ?_,
    fun f b fuel hf => BehavesLike.tryFold f fuel l s b h hf,
    fun f b fuel hf => BehavesLike.tryRfold f fuel l.reverse s b hr (by simpa using hf),
    fun k => BehavesLike.nth k l s h, fun k => ?_⟩
  · obtain ⟨s', h1, _⟩ := BehavesLike.tryFold (γ := Empty) (fun l x => .ok (l ++ [x])) fuel l s [] h hf
    rw [listTryFold_collect] at h1
    simp [DEIter.collect, h1]
  · obtain ⟨s', h1, _⟩ := BehavesLike.tryRfold (γ := Empty) (fun l x => .ok (l ++ [x])) fuel l.reverse s [] hr
      (by simpa using hf)
    rw [listTryFold_collect] at h1
    simp [DEIter.revCollect, h1]
  · obtain ⟨s', h1, _⟩ := BehavesLike.tryFold (γ := Empty) (fun k _ => .ok (k + 1)) fuel l s 0 h hf
    rw [listTryFold_count] at h1
    simp [DEIter.count, h1]
  · obtain ⟨s', h1, _⟩ := BehavesLike.tryFold (γ := Empty) (fun _ x => .ok (some x)) fuel l s none h hf
    rw [listTryFold_last] at h1
    simp [DEIter.last, h1]
  · obtain ⟨s', h1, _⟩ := BehavesLike.tryFold (fun () x => if p x then .error x else .ok ()) fuel l s () h hf
    rw [listTryFold_find] at h1
    simp only [DEIter.find, h1, ok_bind]
    cases l.find? p <;> rfl
  · obtain ⟨s', h1, h2⟩ := BehavesLike.nthBack k l.reverse s hr
    refine ⟨s', h1, ?_⟩
    rwa [List.drop_reverse, List.reverse_reverse] at h2

end OrdinalMap
