import Verif.Model.Field
/-! # Lemmas about field containers -/

namespace Thrift

theorem fillMaps_id_absent : ∀ fs n i x, (∀ f ∈ fs, f.id ≠ x) → (fillMaps fs n i).2 x = i x
  | [], _, _, _, _ => rfl
  | f :: fs, n, i, x, h => by
    rw [fillMaps, fillMaps_id_absent fs _ _ x fun g hg => h g (List.mem_cons_of_mem _ hg)]
    exact if_neg fun e => h f List.mem_cons_self e.symm

theorem fillMaps_name_absent : ∀ fs n i x, (∀ f ∈ fs, f.name ≠ x) → (fillMaps fs n i).1 x = n x
  | [], _, _, _, _ => rfl
  | f :: fs, n, i, x, h => by
    rw [fillMaps, fillMaps_name_absent fs _ _ x fun g hg => h g (List.mem_cons_of_mem _ hg)]
    split
    · exact if_neg fun e => h f List.mem_cons_self e.symm
    · rfl

theorem fillMaps_id_present : ∀ fs n i, (fs.map Field.id).Nodup → ∀ f ∈ fs, (fillMaps fs n i).2 f.id = some f
  | [], _, _, _, _, h => absurd h List.not_mem_nil
  | g :: fs, n, i, nd, f, h => by
    rw [List.map_cons, List.nodup_cons] at nd
    rw [fillMaps]
    rcases List.mem_cons.1 h with rfl | h
    · rw [fillMaps_id_absent fs _ _ _ fun g hg e => nd.1 (List.mem_map.2 ⟨g, hg, e⟩)]
      exact if_pos rfl
    · exact fillMaps_id_present fs _ _ nd.2 f h

theorem fillMaps_name_present : ∀ fs n i, (fs.map Field.name).Nodup → ∀ f ∈ fs, f.name ≠ [] →
    (fillMaps fs n i).1 f.name = some f
  | [], _, _, _, _, h, _ => absurd h List.not_mem_nil
  | g :: fs, n, i, nd, f, h, hn => by
    rw [List.map_cons, List.nodup_cons] at nd
    rw [fillMaps]
    rcases List.mem_cons.1 h with rfl | h
    · rw [fillMaps_name_absent fs _ _ _ fun g hg e => nd.1 (List.mem_map.2 ⟨g, hg, e⟩), if_pos hn]
      exact if_pos rfl
    · exact fillMaps_name_present fs _ _ nd.2 f h hn

theorem fillMaps_empty_name : ∀ fs n i, (fillMaps fs n i).1 [] = n []
  | [], _, _ => rfl
  | f :: fs, n, i => by
    rw [fillMaps, fillMaps_empty_name fs]
    split
    · exact if_neg fun e => ‹f.name ≠ []› e.symm
    · rfl

/-- A list without repetition inside a list that is no longer contains all of
it. -/
theorem subset_of_nodup [DecidableEq α] : ∀ (as bs : List α), as.Nodup → as ⊆ bs → bs.length ≤ as.length → bs ⊆ as
  | [], bs, _, _, hl => by
    have : bs = [] := List.eq_nil_of_length_eq_zero (Nat.le_zero.1 hl)
    rw [this]; exact fun _ h => h
  | a :: as, bs, nd, hs, hl => by
    rw [List.nodup_cons] at nd
    have ha : a ∈ bs := hs List.mem_cons_self
    have hlen := List.length_erase_of_mem ha
    have ih := subset_of_nodup as (bs.erase a) nd.2
      (fun x hx => (List.mem_erase_of_ne (fun e : x = a => nd.1 (e ▸ hx))).2 (hs (List.mem_cons_of_mem _ hx)))
      (by rw [hlen]; simp only [List.length_cons] at hl; omega)
    intro b hb
    by_cases e : b = a
    · exact e ▸ List.mem_cons_self
    · exact List.mem_cons_of_mem _ (ih ((List.mem_erase_of_ne e).2 hb))

/-- What `Field.equals` looks at. -/
def Field.sig (f : Field) : TType × Int := (f.typeId, f.id)

theorem Field.equals_iff (f g : Field) : f.equals g = true ↔ f.sig = g.sig := by
  simp [Field.equals, Field.sig]

theorem containsField_iff (fs : List Field) (f : Field) :
    (FieldContainer.new fs).containsField f = true ↔ f.sig ∈ fs.map Field.sig := by
  show (fs.any fun g => g.equals f) = true ↔ _
  rw [List.any_eq_true, List.mem_map]
  exact ⟨fun ⟨g, hg, e⟩ => ⟨g, hg, (Field.equals_iff _ _).1 e⟩, fun ⟨g, hg, e⟩ => ⟨g, hg, (Field.equals_iff _ _).2 e⟩⟩

theorem container_equals_iff (p q : List Field) :
    (FieldContainer.new p).equals (FieldContainer.new q) = true ↔
      p.length = q.length ∧ p.map Field.sig ⊆ q.map Field.sig := by
  show (if p.length ≠ q.length then false else p.all fun f => (FieldContainer.new q).containsField f) = true ↔ _
  by_cases h : p.length = q.length
  · rw [if_neg (fun hn => hn h), List.all_eq_true]
    constructor
    · intro ha
      refine ⟨h, fun x hx => ?_⟩
      obtain ⟨f, hf, rfl⟩ := List.mem_map.1 hx
      exact (containsField_iff _ _).1 (ha f hf)
    · intro ⟨_, hs⟩ f hf
      exact (containsField_iff _ _).2 (hs (List.mem_map.2 ⟨f, hf, rfl⟩))
  · rw [if_pos h]
    exact ⟨fun e => absurd e (by decide), fun e => absurd e.1 h⟩

end Thrift
