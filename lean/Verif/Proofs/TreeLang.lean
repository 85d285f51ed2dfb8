import Verif.Proofs.Tree
/-!
# The grammar of `.tree` files describes the specified texts
-/

namespace Verif
namespace TreeGrammar
open Re TreeSpec

theorem lang_seq {a b : Re} {w : PyStr} : Lang (seq a b) w ↔ ∃ u v, w = u ++ v ∧ Lang a u ∧ Lang b v := Iff.rfl
theorem lang_alt {a b : Re} {w : PyStr} : Lang (alt a b) w ↔ Lang a w ∨ Lang b w := Iff.rfl

theorem lang_chr_seq {c : Char} {b : Re} {w : PyStr} : Lang (seq (chr c) b) w ↔ ∃ v, w = c :: v ∧ Lang b v := by
  rw [lang_seq]
  constructor
  · rintro ⟨u, v, rfl, h1, h2⟩
    rw [lang_chr.1 h1]
    exact ⟨v, rfl, h2⟩
  · rintro ⟨v, rfl, h⟩
    exact ⟨[c], v, rfl, lang_chr.2 rfl, h⟩

theorem lang_many {P : PyStr → Prop} {a : Re} {g : Bool} (h : ∀ w, Lang a w ↔ P w) (w : PyStr) :
    Lang (star g a) w ↔ Many P w := by
  constructor
  · rintro ⟨ws, rfl, hws⟩
    induction ws with
    | nil => exact .none
    | cons x ws ih => exact .more ((h x).1 (hws x (by simp))) (ih fun u hu => hws u (by simp [hu]))
  · intro hm
    induction hm with
    | none => exact ⟨[], rfl, by simp⟩
    | @more p s hp _ ih =>
      obtain ⟨ws, rfl, hws⟩ := ih
      refine ⟨p :: ws, rfl, fun u hu => ?_⟩
      rcases List.mem_cons.1 hu with rfl | hu
      · exact (h u).2 hp
      · exact hws u hu

theorem lang_sep {P : PyStr → Prop} {a : Re} {c : Char} {g : Bool} (h : ∀ w, Lang a w ↔ P w) (w : PyStr) :
    Lang (seq a (star g (seq (chr c) a))) w ↔ Separated c P w := by
  constructor
  · rintro ⟨u, v, rfl, h1, ws, rfl, h2⟩
    induction ws generalizing u with
    | nil => rw [List.flatten_nil, List.append_nil]; exact .one ((h u).1 h1)
    | cons x ws ih =>
      obtain ⟨x', rfl, hx⟩ := lang_chr_seq.1 (h2 x (by simp))
      have := ih x' hx (fun u hu => h2 u (by simp [hu]))
      rw [List.flatten_cons, List.cons_append]
      exact .more ((h u).1 h1) this
  · intro hs
    induction hs with
    | @one p hp => exact ⟨p, [], by simp, (h p).2 hp, [], rfl, by simp⟩
    | @more p s hp _ ih =>
      obtain ⟨u, v, rfl, h1, ws, rfl, h2⟩ := ih
      refine ⟨p, _, rfl, (h p).2 hp, (c :: u) :: ws, by simp, fun x hx => ?_⟩
      rcases List.mem_cons.1 hx with rfl | hx
      · exact lang_chr_seq.2 ⟨u, rfl, h1⟩
      · exact h2 x hx

theorem lang_sep_seq {P : PyStr → Prop} {a b : Re} {c : Char} {g : Bool} (h : ∀ w, Lang a w ↔ P w) (w : PyStr) :
    Lang (seq a (seq (star g (seq (chr c) a)) b)) w ↔ ∃ u v, w = u ++ v ∧ Separated c P u ∧ Lang b v := by
  constructor
  · rintro ⟨u, v, rfl, h1, v1, v2, rfl, h2, h3⟩
    exact ⟨u ++ v1, v2, by simp, (lang_sep h _).1 ⟨u, v1, rfl, h1, h2⟩, h3⟩
  · rintro ⟨u, v, rfl, h1, h2⟩
    obtain ⟨x, y, rfl, h3, h4⟩ := (lang_sep (g := g) h _).2 h1
    exact ⟨x, y ++ v, by simp, h3, y, v, rfl, h4, h2⟩

theorem isTreeDigit_iff (c : Char) : isTreeDigit c = true ↔ '0' ≤ c ∧ c ≤ '9' := by
  simp only [isTreeDigit, Bool.and_eq_true, decide_eq_true_eq]
  exact Iff.rfl

theorem lang_int (w : PyStr) : Lang int w ↔ Number w := by
  rw [int, lang_plus_cls, Number]
  simp only [isTreeDigit_iff]

theorem isAZ_iff' (c : Char) : isAZ c = true ↔ 'A' ≤ c ∧ c ≤ 'Z' := by
  simp only [isAZ, Bool.and_eq_true, decide_eq_true_eq]
  exact Iff.rfl

theorem isEntryChar_iff (c : Char) : isEntryChar c = true ↔
    ('A' ≤ c ∧ c ≤ 'Z') ∨ ('a' ≤ c ∧ c ≤ 'z') ∨ isDigit c = true ∨ c = '-' ∨ c = '_' := by
  simp only [isEntryChar, Bool.or_eq_true, Bool.and_eq_true, decide_eq_true_eq, beq_iff_eq, or_assoc]
  exact Iff.rfl

theorem lang_entry (w : PyStr) : Lang valuePoolEntry w ↔ Entry w := by
  rw [valuePoolEntry, lang_plus_cls, Entry]
  simp only [isEntryChar_iff]

theorem lang_segmentKey (w : PyStr) : Lang segmentKey w ↔ SegmentKey w := by
  rw [segmentKey, lang_seq]
  simp only [lang_rep_cls, lang_star_cls, isAZ_iff']
  constructor
  · rintro ⟨u, v, rfl, ⟨h1, h2⟩, h3⟩
    refine ⟨by rw [List.length_append]; omega, fun c hc => ?_⟩
    rcases List.mem_append.1 hc with hc | hc
    · exact h2 c hc
    · exact h3 c hc
  · rintro ⟨h1, h2⟩
    exact ⟨w.take 3, w.drop 3, (List.take_append_drop 3 w).symm, ⟨by rw [List.length_take]; omega,
      fun c hc => h2 c (List.mem_of_mem_take hc)⟩, fun c hc => h2 c (List.mem_of_mem_drop hc)⟩

theorem lang_mark (w : PyStr) : Lang obligMark w ↔ Mark w := by
  simp only [obligMark, lang_alt, lang_chr, Mark, List.mem_cons, List.not_mem_nil, or_false]

theorem lang_characterSet (w : PyStr) : Lang characterSet w ↔ CharacterSet w := by
  simp only [characterSet, lang_alt, lang_str, CharacterSet, List.mem_cons, List.not_mem_nil, or_false]

theorem lang_key (w : PyStr) : Lang segmentGroupKey w ↔ GroupKey w := by
  simp only [segmentGroupKey, lang_alt, lang_seq, lang_str, lang_int]
  constructor
  · rintro (⟨u, v, rfl, rfl, h⟩ | rfl | rfl)
    · exact .sg h
    · exact .unh
    · exact .unb
  · rintro (h | _ | _)
    · exact .inl ⟨_, _, rfl, rfl, h⟩
    · exact .inr (.inl rfl)
    · exact .inr (.inr rfl)

theorem lang_valuePool (w : PyStr) : Lang valuePool w ↔ ∃ v, w = '{' :: v ++ ['}'] ∧ Separated '.' Entry v := by
  simp only [valuePool, lang_chr_seq, lang_sep_seq lang_entry, lang_chr]
  constructor
  · rintro ⟨v, rfl, u, v', rfl, h, rfl⟩
    exact ⟨u, rfl, h⟩
  · rintro ⟨v, rfl, h⟩
    exact ⟨_, rfl, v, _, rfl, h, rfl⟩

theorem lang_composite (w : PyStr) : Lang composite w ↔ Composite w := by
  simp only [composite, compositeLength, lang_seq, lang_opt, lang_mark, lang_characterSet, lang_int, lang_valuePool]
  constructor
  · rintro ⟨m, r, rfl, hm, ⟨c, r, rfl, hc, ⟨n, r, rfl, hn, ⟨v, rfl, hv⟩ | rfl⟩ | rfl⟩ | rfl⟩
    · have := Composite.pool hm hc hn hv
      simpa using this
    · simpa using Composite.length hm hc hn
    · simpa using Composite.kind hm hc
    · simpa using Composite.mark hm
  · rintro (hm | ⟨hm, hc⟩ | ⟨hm, hc, hn⟩ | ⟨hm, hc, hn, hv⟩)
    · exact ⟨_, [], by simp, hm, .inr rfl⟩
    · exact ⟨_, _, rfl, hm, .inl ⟨_, [], by simp, hc, .inr rfl⟩⟩
    · exact ⟨_, _, by rw [List.append_assoc], hm, .inl ⟨_, _, rfl, hc, .inl ⟨_, [], by simp, hn, .inr rfl⟩⟩⟩
    · exact ⟨_, _, by rw [List.append_assoc, List.append_assoc], hm, .inl ⟨_, _, rfl, hc, .inl ⟨_, _, rfl, hn, .inl ⟨_, rfl, hv⟩⟩⟩⟩

theorem lang_dataElements (w : PyStr) : Lang multipleDataElements w ↔ DataElements w :=
  lang_sep (lang_sep lang_composite) w

theorem lang_comparison (w : PyStr) : Lang conditionBody w ↔ Comparison w := by
  simp only [conditionBody, lang_seq (a := segmentKey), lang_seq (a := int), lang_chr_seq, lang_seq (a := opt (chr '!')), lang_opt,
    lang_chr, lang_segmentKey, lang_int, lang_entry]
  constructor
  · rintro ⟨k, r, rfl, hk, r, rfl, a, r, rfl, ha, r, rfl, b, r, rfl, hb, x, r, rfl, rfl | rfl, v, rfl, hv⟩
    · simpa using Comparison.unequal hk ha hb hv
    · simpa using Comparison.equal hk ha hb hv
  · rintro (⟨hk, ha, hb, hv⟩ | ⟨hk, ha, hb, hv⟩)
    · exact ⟨_, _, by rw [List.append_assoc, List.append_assoc]; rfl, hk, _, rfl, _, _, rfl, ha, _, rfl, _, _, rfl, hb, [], _, rfl,
        .inr rfl, _, rfl, hv⟩
    · exact ⟨_, _, by rw [List.append_assoc, List.append_assoc]; rfl, hk, _, rfl, _, _, rfl, ha, _, rfl, _, _, rfl, hb, ['!'], _, rfl,
        .inl rfl, _, rfl, hv⟩

theorem lang_conditioned (w : PyStr) : Lang conditionedDataElementsSwitch w ↔ Conditioned w := by
  rw [conditionedDataElementsSwitch, lang_seq]
  simp only [condition, lang_chr_seq, lang_sep_seq lang_comparison, lang_chr, lang_seq (a := multipleDataElements),
    lang_dataElements, lang_opt]
  constructor
  · rintro ⟨u, v, rfl, ⟨c, rfl, c, r, rfl, hc, rfl⟩, d, r, rfl, hd, rfl | rfl⟩
    · simpa using Conditioned.closed hc hd
    · simpa using Conditioned.open hc hd
  · rintro (⟨hc, hd⟩ | ⟨hc, hd⟩)
    · exact ⟨_, _, List.append_cons .., ⟨_, rfl, _, _, rfl, hc, rfl⟩, _, _, (List.append_nil _).symm, hd, .inr rfl⟩
    · exact ⟨_, _, by rw [List.append_assoc]; exact List.append_cons .., ⟨_, rfl, _, _, rfl, hc, rfl⟩, _, _, rfl, hd, .inl rfl⟩

theorem lang_definition (w : PyStr) : Lang internationalBdewTuple w ↔ Definition w := by
  rw [internationalBdewTuple, lang_seq]
  simp only [lang_alt, lang_many lang_conditioned, lang_dataElements, lang_seq (a := multipleDataElements), lang_chr]
  constructor
  · rintro ⟨u, v, rfl, ⟨a, x, rfl, ha, rfl⟩ | ha, hb⟩
    · simpa using Definition.pair ha hb
    · exact .conditioned ha hb
  · rintro (⟨ha, hb⟩ | ⟨ha, hb⟩)
    · exact ⟨_, _, List.append_cons .., .inl ⟨_, _, rfl, ha, rfl⟩, hb⟩
    · exact ⟨_, _, rfl, .inr ha, hb⟩

theorem lang_chain (w : PyStr) : Lang internationalBdewTupleChain w ↔ Separated ';' Definition w := lang_sep lang_definition w

theorem lang_segment (w : PyStr) : Lang segment w ↔ SegmentText w := by
  rw [segment, lang_seq]
  simp only [lang_chr_seq, lang_segmentKey, lang_chr, lang_seq (a := internationalBdewTupleChain), lang_chain]
  constructor
  · rintro ⟨k, r, rfl, hk, r, rfl, d, r, rfl, hd, rfl⟩
    simpa using SegmentText.segment hk hd
  · rintro ⟨hk, hd⟩
    exact ⟨_, _, by rw [List.append_assoc]; rfl, hk, _, rfl, _, _, rfl, hd, rfl⟩

theorem lang_item (w : PyStr) : Lang (alt segmentGroupReference segment) w ↔ Item w := by
  rw [lang_alt, lang_segment, segmentGroupReference, lang_seq]
  simp only [lang_chr_seq, lang_key, lang_chr, lang_seq (a := obligMark), lang_mark]
  constructor
  · rintro (⟨k, r, rfl, hk, r, rfl, a, r, rfl, ha, r, rfl, b, r, rfl, hb, rfl⟩ | h)
    · simpa using Item.reference hk ha hb
    · exact .segment h
  · rintro (h | ⟨hk, ha, hb⟩)
    · exact .inr h
    · exact .inl ⟨_, _, by rw [List.append_assoc, List.append_assoc]; rfl, hk, _, rfl, _, _, rfl, ha, _, rfl, _, _, rfl, hb, rfl⟩

theorem lang_line (w : PyStr) : Lang segmentGroup w ↔ Line w := by
  rw [segmentGroup, lang_seq]
  simp only [lang_opt, lang_seq (a := segmentGroupKey), lang_key, lang_seq (a := segment), lang_segment, lang_chr]
  constructor
  · rintro ⟨k, r, rfl, hk, s, r, rfl, hs, ws, rfl, hws⟩
    have hws' : ∃ items : List PyStr, ws = items.map (',' :: ·) ∧ ∀ i ∈ items, Item i := by
      clear hk hs
      induction ws with
      | nil => exact ⟨[], rfl, by simp⟩
      | cons x ws ih =>
        obtain ⟨items, rfl, hi⟩ := ih fun u hu => hws u (by simp [hu])
        obtain ⟨x', rfl, hx⟩ := lang_chr_seq.1 (hws x (by simp))
        refine ⟨x' :: items, rfl, fun i hi' => ?_⟩
        rcases List.mem_cons.1 hi' with rfl | hi'
        · exact (lang_item i).1 hx
        · exact hi i hi'
    obtain ⟨items, rfl, hi⟩ := hws'
    rw [← List.append_assoc]
    refine .line ?_ hs hi
    rcases hk with ⟨g, c, rfl, hg, rfl | rfl⟩ | rfl
    · exact .inr (.inr ⟨g, hg, rfl⟩)
    · exact .inr (.inl (by simpa using hg))
    · exact .inl rfl
  · rintro ⟨hk, hs, hi⟩
    rename_i k s items
    refine ⟨k, _, by rw [List.append_assoc], ?_, s, _, rfl, hs, _, rfl, ?_⟩
    · rcases hk with rfl | hk | ⟨g, hg, rfl⟩
      · exact .inr rfl
      · exact .inl ⟨k, [], by simp, hk, .inr rfl⟩
      · exact .inl ⟨g, _, rfl, hg, .inl rfl⟩
    · intro u hu
      obtain ⟨i, hi', rfl⟩ := List.mem_map.1 hu
      exact lang_chr_seq.2 ⟨i, rfl, (lang_item i).2 (hi i hi')⟩

theorem lang_tree (w : PyStr) : Lang segmentGroupChain w ↔ Tree w := by
  rw [segmentGroupChain, rootNode, lang_chr_seq]
  simp only [lang_chr_seq, lang_sep lang_line]
  constructor
  · rintro ⟨v, rfl, v, rfl, h⟩
    exact .tree h
  · rintro ⟨h⟩
    exact ⟨_, rfl, _, rfl, h⟩

theorem all_isWS (s : PyStr) : s.all isWS = true ↔ Blank s := by
  rw [List.all_eq_true, Blank]
  have h12 : ∀ c : Char, c.toNat = 12 ↔ c = Char.ofNat 12 := fun c =>
    ⟨fun h => by rw [← h, Char.ofNat_toNat], fun h => by rw [h]; rfl⟩
  simp only [isWS, Bool.or_eq_true, beq_iff_eq, or_assoc, h12]

end TreeGrammar
end Verif
