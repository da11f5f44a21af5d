import Verif.Proofs.Style
/- Lemmas about class sheets. -/
namespace Verif.Proofs
open Verif.Go Verif.Model Verif.Spec

theorem indexByte_none_iff {b : UInt8} {s : Str} : indexByte b s = none ↔ b ∉ s := by
  induction s with
  | nil => simp [indexByte]
  | cons c cs ih =>
    simp only [indexByte]
    split
    · rename_i h; simp [h]
    · rename_i h; simp [ih, Ne.symm h]

theorem indexByte_append {b : UInt8} {k v : Str} (h : b ∉ k) : indexByte b (k ++ b :: v) = some k.length := by
  induction k with
  | nil => simp [indexByte]
  | cons c cs ih =>
    simp only [List.mem_cons, not_or] at h
    simp [indexByte, ih h.2, Ne.symm h.1]

theorem loop_tail (fl : Floats) (ord : Nat → MapOrder) (n : Nat) {tail : Str} (h : (123 : UInt8) ∉ tail) (cs : Classes) :
    decodeClassesLoop fl ord n tail cs = some cs := by
  rw [decodeClassesLoop]
  split
  · rfl
  · rename_i i hi
    rw [indexByte_none_iff.mpr h] at hi; simp at hi

theorem loop_block (fl : Floats) (ord : Nat → MapOrder) (n : Nat) (b : Block) (hb : b.ok) (rest : Str) (cs : Classes) :
    decodeClassesLoop fl ord n (b.text ++ rest) cs =
      if trimWS b.head = [] then none
      else match decodeMutator fl (ord n) b.body with
        | none => none
        | some m => match addBlock cs (trimWS b.head) m with
          | none => none
          | some cs' => decodeClassesLoop fl ord (n + 1) rest cs' := by
  obtain ⟨head, body⟩ := b
  obtain ⟨h1, h2⟩ := hb
  simp only [Block.text] at *
  have e1 : indexByte 123 (head ++ 123 :: (body ++ [125]) ++ rest) = some head.length := by
    rw [List.append_assoc]; exact indexByte_append h1
  rw [decodeClassesLoop]
  split
  · rename_i hi; rw [e1] at hi; simp at hi
  · rename_i i hi
    rw [e1] at hi
    simp only [Option.some.injEq] at hi
    subst hi
    have e2 : (head ++ 123 :: (body ++ [125]) ++ rest).take head.length = head := by simp
    have e3 : (head ++ 123 :: (body ++ [125]) ++ rest).drop head.length = (123 :: body) ++ 125 :: rest := by simp
    have e4 : indexByte 125 ((123 :: body) ++ 125 :: rest) = some (body.length + 1) := by
      have : (125 : UInt8) ∉ 123 :: body := by simp [h2]
      rw [indexByte_append this]; rfl
    simp only [e2, List.length_eq_zero_iff]
    split
    · rfl
    · split
      · rename_i hj; rw [e3, e4] at hj; simp at hj
      · rename_i j hj
        rw [e3, e4] at hj
        simp only [Option.some.injEq] at hj
        subst hj
        have e5 : slice? (head ++ 123 :: (body ++ [125]) ++ rest) (head.length + 1) (body.length + 1 + head.length) = some body := by
          unfold slice?
          rw [if_pos (by simp; omega)]
          have : (head ++ 123 :: (body ++ [125]) ++ rest).drop (head.length + 1) = body ++ 125 :: rest := by
            rw [show head.length + 1 = (head ++ [(123 : UInt8)]).length by simp,
              show head ++ 123 :: (body ++ [125]) ++ rest = (head ++ [123]) ++ (body ++ 125 :: rest) by simp, List.drop_left]
          rw [this, show body.length + 1 + head.length - (head.length + 1) = body.length by omega, List.take_left]
        have e6 : (head ++ 123 :: (body ++ [125]) ++ rest).drop (body.length + 1 + head.length + 1) = rest := by
          rw [show body.length + 1 + head.length + 1 = (head ++ 123 :: (body ++ [125])).length by simp; omega, List.drop_left]
        simp only [e5, e6]
        rfl

theorem loop_unclosed (fl : Floats) (ord : Nat → MapOrder) (n : Nat) {head rest : Str} (h1 : (123 : UInt8) ∉ head)
    (h2 : (125 : UInt8) ∉ rest) (cs : Classes) : decodeClassesLoop fl ord n (head ++ 123 :: rest) cs = none := by
  rw [decodeClassesLoop]
  split
  · rename_i hi; rw [indexByte_append h1] at hi; simp at hi
  · rename_i i hi
    rw [indexByte_append h1] at hi
    simp only [Option.some.injEq] at hi
    subst hi
    simp only
    split
    · rfl
    · split
      · rfl
      · rename_i j hj
        rw [List.drop_left, indexByte_none_iff.mpr (by simp [h2])] at hj
        simp at hj

/-- Every text is a list of blocks followed by a tail without '{' or by an unclosed block. -/
theorem sheet_forms : ∀ (k : Nat) (s : Str), s.length = k → ∃ bs : List Block, (∀ b ∈ bs, b.ok) ∧
    ((∃ tail, s = blocksText bs ++ tail ∧ (123 : UInt8) ∉ tail) ∨
     (∃ head rest, s = blocksText bs ++ (head ++ 123 :: rest) ∧ (123 : UInt8) ∉ head ∧ (125 : UInt8) ∉ rest)) := by
  intro k
  induction k using Nat.strongRecOn with
  | ind k ih =>
    intro s hk
    by_cases h1 : (123 : UInt8) ∈ s
    · obtain ⟨head, r, rfl, hh⟩ := exists_cut h1
      by_cases h2 : (125 : UInt8) ∈ r
      · obtain ⟨body, rest, rfl, hb⟩ := exists_cut h2
        obtain ⟨bs, hbs, hf⟩ := ih rest.length (by simp at hk; omega) rest rfl
        refine ⟨⟨head, body⟩ :: bs, ?_, ?_⟩
        · intro b hm
          simp only [List.mem_cons] at hm
          rcases hm with rfl | hm
          · exact ⟨hh, hb⟩
          · exact hbs b hm
        · rcases hf with ⟨tail, rfl, ht⟩ | ⟨hd, rs, rfl, ht⟩
          · exact .inl ⟨tail, by simp [blocksText, Block.text], ht⟩
          · exact .inr ⟨hd, rs, by simp [blocksText, Block.text], ht⟩
      · exact ⟨[], by simp, .inr ⟨head, r, rfl, hh, h2⟩⟩
    · exact ⟨[], by simp, .inl ⟨s, rfl, h1⟩⟩

/-! ### Meaning -/

theorem rep_nil : Rep [] (fun _ => none) := fun _ => trivial

theorem bodySets_iff {fl : Floats} {ord : MapOrder} {body : Str} : 
    (∀ m, decodeMutator fl ord body = some m → ∃ σ, BodySets fl body σ ∧ Behaves m σ) ∧
    (∀ σ, BodySets fl body σ → ∃ m, decodeMutator fl ord body = some m ∧ Behaves m σ) := by
  constructor
  · intro m hm
    obtain ⟨ds, hd⟩ := decls_of_some hm
    refine ⟨sets fl ds, ⟨ds, hd, ?_, ?_, rfl⟩, decodeMutator_behaves hd hm⟩
    · intro p v hv
      cases hr : p.read fl v with
      | some l => rfl
      | none => rw [(decodeMutator_none_of_decls hd).mpr (.inr ⟨p, v, hv, hr⟩)] at hm; simp at hm
    · cases he : lastValue [] ds with
      | none => rfl
      | some v => rw [(decodeMutator_none_of_decls hd).mpr (.inl ⟨v, he⟩)] at hm; simp at hm
  · rintro σ ⟨ds, hd, h1, h2, rfl⟩
    cases hm : decodeMutator fl ord body with
    | some m => exact ⟨m, rfl, decodeMutator_behaves hd hm⟩
    | none =>
      rcases (decodeMutator_none_of_decls hd).mp hm with ⟨v, hv⟩ | ⟨p, v, hv, hr⟩
      · rw [h2] at hv; simp at hv
      · have := h1 p v hv; rw [hr] at this; simp at this

theorem rep_plain {cs : Classes} {S : SheetMeaning} {name : Str} {m : Mutator} {σ : Prp → Option Leaf} (hR : Rep cs S)
    (hm : Behaves m σ) : Rep (mapSet name { mutator := m, selectors := [] } cs)
      (fun n => if n = name then some ⟨σ, fun _ => none⟩ else S n) := by
  intro n
  rw [mapGet_mapSet]
  by_cases h : n = name
  · simp only [h, if_true]; exact ⟨hm, fun t => trivial⟩
  · rw [if_neg (Ne.symm h)]; simp only [if_neg h]; exact hR n

theorem enter_of_addBlock {cs cs' : Classes} {S : SheetMeaning} {name : Str} {m : Mutator} {σ : Prp → Option Leaf}
    (hR : Rep cs S) (hm : Behaves m σ) (h : addBlock cs name m = some cs') : ∃ S', Enter S name σ S' ∧ Rep cs' S' := by
  unfold addBlock at h
  by_cases h58 : (58 : UInt8) ∈ name
  · obtain ⟨base, sel, rfl, hb⟩ := exists_cut h58
    rw [indexByte_append hb] at h
    cases base with
    | nil =>
      simp only [List.length_nil, Option.some.injEq] at h
      subst h
      exact ⟨_, .colon, rep_plain hR hm⟩
    | cons x xs =>
      have e1 : ((x :: xs) ++ 58 :: sel).take (xs.length + 1) = x :: xs := by
        rw [show xs.length + 1 = (x :: xs).length by rfl, List.take_left]
      have e2 : ((x :: xs) ++ 58 :: sel).drop (xs.length + 2) = sel := by
        rw [show xs.length + 2 = ((x :: xs) ++ [58]).length by simp,
          show (x :: xs) ++ 58 :: sel = ((x :: xs) ++ [58]) ++ sel by simp, List.drop_left]
      simp only [List.length_cons, e1, e2] at h
      cases hg : mapGet (x :: xs) cs with
      | none => simp [hg] at h
      | some cl =>
        simp only [hg, Option.some.injEq] at h
        subst h
        have hS := hR (x :: xs)
        rw [hg] at hS
        cases hSx : S (x :: xs) with
        | none => rw [hSx] at hS; exact absurd hS id
        | some C =>
          rw [hSx] at hS
          refine ⟨_, .selector (by simp) hb hSx, ?_⟩
          intro n
          rw [mapGet_mapSet]
          by_cases hn : n = x :: xs
          · simp only [hn, if_true]
            refine ⟨hS.1, ?_⟩
            intro t
            rw [mapGet_mapSet]
            by_cases ht : t = sel
            · simp only [ht, if_true]; exact hm
            · rw [if_neg (Ne.symm ht)]; simp only [if_neg ht]; exact hS.2 t
          · rw [if_neg (Ne.symm hn)]; simp only [if_neg hn]; exact hR n
  · rw [indexByte_none_iff.mpr h58] at h
    simp only [Option.some.injEq] at h
    subst h
    exact ⟨_, .plain h58, rep_plain hR hm⟩

theorem addBlock_of_enter {cs : Classes} {S S' : SheetMeaning} {name : Str} {m : Mutator} {σ : Prp → Option Leaf}
    (hR : Rep cs S) (hm : Behaves m σ) (h : Enter S name σ S') : ∃ cs', addBlock cs name m = some cs' ∧ Rep cs' S' := by
  cases h with
  | plain h58 =>
    exact ⟨_, by unfold addBlock; rw [indexByte_none_iff.mpr h58], rep_plain hR hm⟩
  | @colon rest _ =>
    have : indexByte 58 (58 :: rest) = some 0 := by simp [indexByte]
    exact ⟨_, by unfold addBlock; rw [this], rep_plain hR hm⟩
  | @selector base sel _ C h0 hb hC =>
    have hS := hR base
    rw [hC] at hS
    cases hg : mapGet base cs with
    | none => rw [hg] at hS; exact absurd hS id
    | some cl =>
      cases base with
      | nil => exact absurd rfl h0
      | cons x xs =>
        have e1 : ((x :: xs) ++ 58 :: sel).take (xs.length + 1) = x :: xs := by
          rw [show xs.length + 1 = (x :: xs).length by rfl, List.take_left]
        have e2 : ((x :: xs) ++ 58 :: sel).drop (xs.length + 2) = sel := by
          rw [show xs.length + 2 = ((x :: xs) ++ [58]).length by simp,
            show (x :: xs) ++ 58 :: sel = ((x :: xs) ++ [58]) ++ sel by simp, List.drop_left]
        have hadd : addBlock cs ((x :: xs) ++ 58 :: sel) m =
            some (mapSet (x :: xs) { cl with selectors := mapSet sel m cl.selectors } cs) := by
          unfold addBlock
          rw [indexByte_append hb]
          simp only [List.length_cons, e1, e2, hg]
        obtain ⟨S'', h1, h2⟩ := enter_of_addBlock hR hm hadd
        refine ⟨_, hadd, ?_⟩
        rw [hg] at hS
        intro n
        rw [mapGet_mapSet]
        by_cases hn : n = x :: xs
        · simp only [hn, if_true]
          refine ⟨hS.1, ?_⟩
          intro t
          rw [mapGet_mapSet]
          by_cases ht : t = sel
          · simp only [ht, if_true]; exact hm
          · rw [if_neg (Ne.symm ht)]; simp only [if_neg ht]; exact hS.2 t
        · rw [if_neg (Ne.symm hn)]; simp only [if_neg hn]; exact hR n

theorem loop_sound {fl : Floats} {ord : Nat → MapOrder} {tail : Str} (ht : (123 : UInt8) ∉ tail) : ∀ (bs : List Block) (n : Nat)
    (cs cs' : Classes) (S : SheetMeaning), (∀ b ∈ bs, b.ok) → Rep cs S →
    decodeClassesLoop fl ord n (blocksText bs ++ tail) cs = some cs' → ∃ S', Sheet fl S bs S' ∧ Rep cs' S' := by
  intro bs
  induction bs with
  | nil =>
    intro n cs cs' S _ hR h
    have : blocksText [] ++ tail = tail := rfl
    rw [this, loop_tail fl ord n ht] at h
    simp at h; subst h
    exact ⟨S, .nil, hR⟩
  | cons b bs ih =>
    intro n cs cs' S hok hR h
    have : blocksText (b :: bs) ++ tail = b.text ++ (blocksText bs ++ tail) := by simp [blocksText]
    rw [this, loop_block fl ord n b (hok b (by simp))] at h
    split at h
    · simp at h
    · rename_i hne
      split at h
      · simp at h
      · rename_i m hm
        split at h
        · simp at h
        · rename_i cs1 hadd
          obtain ⟨σ, hσ, hbeh⟩ := (bodySets_iff.1) m hm
          obtain ⟨S1, hE, hR1⟩ := enter_of_addBlock hR hbeh hadd
          obtain ⟨S', hS, hR'⟩ := ih (n + 1) cs1 cs' S1 (fun x hx => hok x (by simp [hx])) hR1 h
          exact ⟨S', .cons (strips_trimWS b.head) hne hσ hE hS, hR'⟩

theorem loop_complete {fl : Floats} {ord : Nat → MapOrder} {tail : Str} (ht : (123 : UInt8) ∉ tail) : ∀ (bs : List Block) (n : Nat)
    (cs : Classes) (S S' : SheetMeaning), (∀ b ∈ bs, b.ok) → Rep cs S → Sheet fl S bs S' →
    ∃ cs', decodeClassesLoop fl ord n (blocksText bs ++ tail) cs = some cs' ∧ Rep cs' S' := by
  intro bs
  induction bs with
  | nil =>
    intro n cs S S' _ hR h
    cases h
    exact ⟨cs, loop_tail fl ord n ht cs, hR⟩
  | cons b bs ih =>
    intro n cs S S' hok hR h
    cases h with
    | cons h1 h2 h3 h4 h5 =>
      have : blocksText (b :: bs) ++ tail = b.text ++ (blocksText bs ++ tail) := by simp [blocksText]
      rw [this, loop_block fl ord n b (hok b (by simp))]
      have hn := strips_unique h1
      subst hn
      rw [if_neg h2]
      obtain ⟨m, hm, hbeh⟩ := (bodySets_iff (ord := ord n)).2 _ h3
      obtain ⟨cs1, hadd, hR1⟩ := addBlock_of_enter hR hbeh h4
      simp only [hm, hadd]
      exact ih (n + 1) cs1 _ S' (fun x hx => hok x (by simp [hx])) hR1 h5

theorem loop_unclosed_blocks {fl : Floats} {ord : Nat → MapOrder} {head rest : Str} (h1 : (123 : UInt8) ∉ head)
    (h2 : (125 : UInt8) ∉ rest) : ∀ (bs : List Block) (n : Nat) (cs : Classes), (∀ b ∈ bs, b.ok) →
    decodeClassesLoop fl ord n (blocksText bs ++ (head ++ 123 :: rest)) cs = none := by
  intro bs
  induction bs with
  | nil => intro n cs _; exact loop_unclosed fl ord n h1 h2 cs
  | cons b bs ih =>
    intro n cs hok
    have : blocksText (b :: bs) ++ (head ++ 123 :: rest) = b.text ++ (blocksText bs ++ (head ++ 123 :: rest)) := by simp [blocksText]
    rw [this, loop_block fl ord n b (hok b (by simp))]
    split
    · rfl
    · split
      · rfl
      · split
        · rfl
        · exact ih _ _ (fun x hx => hok x (by simp [hx]))

/-! ### Determinism of the specification -/

theorem decls_unique {s : Str} {ds ds' : List (Str × Str)} (h : Decls s ds) (h' : Decls s ds') : ds = ds' := by
  have key : ∀ {s ds}, Decls s ds → ds = (split 59 s).flatMap (fun p => (pieceStep p).getD []) := by
    intro s ds h
    induction h with
    | last hp hpc => rw [split_line _ hp]; simp [pieceStep_of_piece hpc]
    | more hp hpc _ ih => rw [split_append_sep _ _ hp]; simp [pieceStep_of_piece hpc, ← ih]
  rw [key h, key h']

theorem bodySets_unique {fl : Floats} {b : Str} {σ σ' : Prp → Option Leaf} (h : BodySets fl b σ) (h' : BodySets fl b σ') : σ = σ' := by
  obtain ⟨ds, h1, _, _, rfl⟩ := h
  obtain ⟨ds', h1', _, _, rfl⟩ := h'
  rw [decls_unique h1 h1']

theorem append_cut_unique {sep : UInt8} : ∀ {a b c d : Str}, sep ∉ a → sep ∉ c → a ++ sep :: b = c ++ sep :: d → a = c ∧ b = d := by
  intro a
  induction a with
  | nil =>
    intro b c d _ hc h
    cases c with
    | nil => simpa using h
    | cons x xs => simp at h; simp [h.1] at hc
  | cons x xs ih =>
    intro b c d ha hc h
    cases c with
    | nil => simp at h; simp [h.1] at ha
    | cons y ys =>
      simp only [List.cons_append, List.cons.injEq] at h
      simp only [List.mem_cons, not_or] at ha hc
      obtain ⟨h1, h2⟩ := ih ha.2 hc.2 h.2
      exact ⟨by rw [h.1, h1], h2⟩

theorem enter_unique {S S' S'' : SheetMeaning} {name : Str} {σ : Prp → Option Leaf} (h : Enter S name σ S') (h' : Enter S name σ S'') :
    S' = S'' := by
  generalize hN : name = N at h'
  cases h with
  | plain h1 =>
    cases h' with
    | plain _ => subst hN; rfl
    | colon => subst hN; simp at h1
    | selector _ _ _ => subst hN; simp at h1
  | colon =>
    cases h' with
    | plain h2 => subst hN; simp at h2
    | colon => rw [hN]
    | @selector base _ _ _ h0 h1 _ =>
      cases base with
      | nil => exact absurd rfl h0
      | cons x xs => simp at hN; simp [hN.1] at h1
  | @selector base sel _ C h0 h1 hC =>
    cases h' with
    | plain h2 => subst hN; simp at h2
    | colon =>
      cases base with
      | nil => exact absurd rfl h0
      | cons x xs => simp at hN; simp [hN.1] at h1
    | @selector base' sel' _ C' h0' h1' hC' =>
      obtain ⟨rfl, rfl⟩ := append_cut_unique h1 h1' hN
      rw [hC] at hC'
      simp at hC'
      subst hC'
      rfl

theorem sheet_unique {fl : Floats} {S S' S'' : SheetMeaning} {bs : List Block} (h : Sheet fl S bs S') (h' : Sheet fl S bs S'') : S' = S'' := by
  induction h with
  | nil => cases h'; rfl
  | cons a1 a2 a3 a4 _ ih =>
    cases h' with
    | cons b1 b2 b3 b4 b5 =>
      have e1 := strips_unique a1
      have e2 := strips_unique b1
      have e3 : _ = _ := e1.symm.trans e2
      subst e3
      have e4 := bodySets_unique a3 b3
      subst e4
      have e5 := enter_unique a4 b4
      subst e5
      exact ih b5

end Verif.Proofs
