import Verif.Lemmas.Across
import Verif.Lemmas.CompactService
/-!
# Calls between two versions of a service over the compact protocol
-/

namespace Thrift

variable {S S' : Schema} {L : FloatLib} {mem : List Nat → Nat} {msd : Int} {lax : Prop}

/-- A call within what two versions and the compact protocol can carry: the values of the
arguments and of what the handler returns have nothing that the protocol loses. -/
structure CompactAcross {η : Type} (S S' : Schema) (sv : Service η) (m : Method) (a : Attrs) : Prop where
  sound : SoundAcross S S' sv m a
  typed : Typed S (.struct m.args) ((S.structs m.args).object 0 a)
  kept : ∀ v, Means S (.struct m.args) ((S.structs m.args).object 0 a) v → v.Kept
  result_typed : ∀ h as r h', sv.handle m h as = ((r, none), h') → Typed S' (.struct m.result) ((S'.structs m.result).object 0 r)
  result_kept : ∀ h as r h', sv.handle m h as = ((r, none), h') → ∀ x ∈ (S'.structs m.result).members, ∀ v,
    Means S' x.ty (attributeOf r x.id.toInt) v → v ≠ .bool false ∧ v.Kept

/-- The tree of an arguments object, as the other version reads it. -/
theorem compact_args_across (hS : S.Ok) (hS' : S'.Ok) (hv : Versions S S') (hlax : lax ∨ SameDefaults S S') (hc : S.Compactable) {k : Nat}
    {attrs : Attrs} (hf : Fine S (.struct k) ((S.structs k).object 0 attrs)) (ht : Typed S (.struct k) ((S.structs k).object 0 attrs))
    (hk : ∀ v, Means S (.struct k) ((S.structs k).object 0 attrs) v → v.Kept) :
    ∃ fs N as', (∀ fuel, N ≤ fuel → flatMembers S (flatVal false S fuel) attrs (S.structs k).sorted = some fs) ∧ fs.WF ∧
      fs.Conforms S' (S'.structs k) ∧ buildFields S' L mem fs [] (S'.structs k) ((S'.structs k).fresh S') = .ok as' ∧
      ReceivedAttrs S S' lax k attrs as' ∧ (Val.struct fs).Kept := by
  obtain ⟨fs, N, as', h1, h2, h3, h4, h5⟩ := args_across (L := L) (mem := mem) hS hS' hv hlax hf
  obtain ⟨gs, M, bs, g1, -, -, -, -, g6⟩ := compact_args (L := L) (mem := mem) hS hc hf ht hk
  have e : fs = gs := by
    have a := h1 (max N M) (by omega)
    rw [← flatMembers_free attrs _ fun m hm d => flatVal_free (fun k m hm => (hc k m hm).2) (max N M) m.ty d (hc k m (mem_sorted.mp hm)).2,
      g1 (max N M) (by omega)] at a
    exact (Option.some.inj a).symm
  subst e
  exact ⟨fs, M, as', g1, h2, h3, h4, h5, g6⟩

/-- The tree of a result object, as the other version reads it. -/
theorem compact_result_across (hS : S.Ok) (hS' : S'.Ok) (hv : Versions S S') (hlax : lax ∨ SameDefaults S S') (hc : S.Compactable) {k : Nat}
    {r : Attrs} (hf : Fine S (.struct k) ((S.structs k).object 0 r)) (ht : Typed S (.struct k) ((S.structs k).object 0 r))
    (hd : ResultDef (S.structs k)) (hd' : ResultDef (S'.structs k)) (ho : OneOutcome S (S.structs k) r)
    (hk : ∀ x ∈ (S.structs k).members, ∀ v, Means S x.ty (attributeOf r x.id.toInt) v → v ≠ .bool false ∧ v.Kept) :
    ∃ fs N r', (∀ fuel, N ≤ fuel → flatMembers S (flatVal false S fuel) r (pickResult r (S.structs k).sorted.reverse).toList = some fs) ∧
      fs.WF ∧ fs.Conforms S' (S'.structs k) ∧ buildFields S' L mem fs [] (S'.structs k) ((S'.structs k).fresh S') = .ok r' ∧
      ReceivedAttrs S S' lax k r r' ∧ (Val.struct fs).Kept := by
  obtain ⟨fs, N, r', h1, h2, h3, h4, h5⟩ := result_across (L := L) (mem := mem) hS hS' hv hlax hf hd hd' ho
  obtain ⟨gs, M, bs, g1, -, -, -, -, g6⟩ := compact_result (L := L) (mem := mem) hS hc hf ht hd ho hk
  have e : fs = gs := by
    have a := h1 (max N M) (by omega)
    rw [← flatMembers_free r _ fun m hm d => flatVal_free (fun k m hm => (hc k m hm).2) (max N M) m.ty d (hc k m (pickResult_mem hm)).2,
      g1 (max N M) (by omega)] at a
    exact (Option.some.inj a).symm
  subst e
  exact ⟨fs, M, r', g1, h2, h3, h4, h5, g6⟩

section
variable {C V : Transport σ} {up down cbuf vbuf : σ → Bytes} {η : Type} {sv : Service η} {m : Method} {f : Cmp} {fv : Nat}

theorem compact_across_call (K : Link C V up down cbuf vbuf) (hS : S.Ok) (hS' : S'.Ok) (hv : Versions S S') (hv' : Versions S' S)
    (hl : lax ∨ SameDefaults S S' ∧ SameDefaults S' S) (hc : S.Compactable) (hc' : S'.Compactable) (h10 : 10 ≤ fv)
    (hf : f.booleanField = none) {a : Attrs} (hm : CompactAcross S S' sv m a) (hk : sv.find m.name = some m) :
    ∃ as', ReceivedAttrs S S' lax m.args a as' ∧
      (∀ h r h', sv.handle m h as' = ((r, none), h') →
        ∃ r', ReceivedAttrs S' S lax m.result r r' ∧ ∃ N, ∀ fuel, N ≤ fuel → ∀ (n : I32) (j i o : Cmp) t, j.boolValueIsNotNull = false →
          i.boolValueIsNotNull = false → o.booleanField = none → Settled up down cbuf vbuf t → ∃ t' j' i',
          (Client.call (compact fv) S L mem msd fuel m a).run (served C V (process (compact fv) (compact fv) S' L mem msd fuel sv))
            ⟨some f, some j, some f, n⟩ (some ⟨i, o, h⟩, t) =
            (.ok ((some r', none), ⟨some f, some j', some f, n + 1⟩), (some ⟨i', o, h'⟩, t')) ∧ Settled up down cbuf vbuf t' ∧
          j'.boolValueIsNotNull = false ∧ i'.boolValueIsNotNull = false) ∧
      (∀ h r e h', sv.handle m h as' = ((r, some e), h') →
        ∃ N, ∀ fuel, N ≤ fuel → ∀ (n : I32) (j i o : Cmp) t, j.boolValueIsNotNull = false →
          i.boolValueIsNotNull = false → o.booleanField = none → Settled up down cbuf vbuf t → ∃ t' j',
          (Client.call (compact fv) S L mem msd fuel m a).run (served C V (process (compact fv) (compact fv) S' L mem msd fuel sv))
            ⟨some f, some j, some f, n⟩ (some ⟨i, o, h⟩, t) =
            (.ok ((none, some (internalError m.name e).err), ⟨some f, some j', some f, n + 1⟩), (none, t')) ∧
            Settled up down cbuf vbuf t' ∧ j'.boolValueIsNotNull = false) := by
  have hn : m.name.length < 2 ^ 31 := by have := hm.sound.name; omega
  have hone := hm.sound.reply
  obtain ⟨fs, N, as', h1, h2, h3, h4, h5, h6⟩ := compact_args_across (L := L) (mem := mem) hS hS' hv (hl.imp id (·.1)) hc hm.sound.args hm.typed hm.kept
  refine ⟨as', h5, ?_, ?_⟩
  · intro h r h' hh
    obtain ⟨f1, f2⟩ := hm.sound.fine h as' r h' hh
    obtain ⟨gs, M, r', g1, g2, g3, g4, g5, g6⟩ := compact_result_across (L := L) (mem := mem) hS' hS hv' (hl.imp id (·.2)) hc' f1
      (hm.result_typed h as' r h' hh) hm.sound.result' hm.sound.result f2 (hm.result_kept h as' r h' hh)
    refine ⟨r', g5, max (max N M) (max fs.size gs.size), fun fuel hfu n j i o t hj hi ho ht => ?_⟩
    obtain ⟨i', hi', ri⟩ := Cmp.reads_object (msd := msd) fv h10 hS' i hi (hS' _) h2 h6 h3 h4
    obtain ⟨j', hj', rj⟩ := Cmp.reads_object (msd := msd) fv h10 hS j hj (hS _) g2 g6 g3 g4
    have hs := K.server.serves_known (S := S') (L := L) (mem := mem) (msd := msd) (fuel := fuel) (op := compact fv)
      (Cmp.reads_header fv m.name hn CALL (n + 1) (by decide) i h10) hk
      (K.server.serves_reply (ri fuel (by omega)) (Cmp.runs_end fv i') hh
        (by rw [hone]; exact K.server.compact_reply fv hn (n + 1) o ho (g1 fuel (by omega)) g2))
    obtain ⟨t', e, ht'⟩ := call_run K (p := compact fv) (c := ⟨some f, some j, some f, n⟩) rfl rfl (compact_holds fv) hone
      (Cmp.emits_message m.name hn CALL (n + 1) f)
      (Cmp.emits_args fv f hf (h1 fuel (by omega)) h2) (Cmp.emits_end fv f) (by rw [List.append_nil]; exact hs)
      (fun w t => recv_reply K (compact_reads fv) (c := ⟨some f, some j, some f, n + 1⟩) rfl (by decide)
        (Cmp.reads_header fv m.name hn REPLY (n + 1) (by decide) j h10) (rj fuel (by omega)) (Cmp.runs_end fv j') w t) t ht
    exact ⟨t', j', i', e, ht', hj', hi'⟩
  · intro h r e h' hh
    have hl := internal_length (hm.sound.message h as' r e h' hh)
    refine ⟨max N (max fs.size 3), fun fuel hfu n j i o t hj hi ho ht => ?_⟩
    obtain ⟨i', hi', ri⟩ := Cmp.reads_object (msd := msd) fv h10 hS' i hi (hS' _) h2 h6 h3 h4
    obtain ⟨j', hj', rj⟩ := Cmp.reads_app (msd := msd) fv h10 _ hl j hj fuel (by omega)
    have hs := K.server.serves_known (S := S') (L := L) (mem := mem) (msd := msd) (fuel := fuel) (op := compact fv)
      (Cmp.reads_header fv m.name hn CALL (n + 1) (by decide) i h10) hk
      (K.server.serves_failure (ri fuel (by omega)) (Cmp.runs_end fv i') hh
        (K.server.compact_exception fv m.name hn (internalError m.name e) hl (n + 1) o ho))
    obtain ⟨t', e, ht'⟩ := call_run K (p := compact fv) (c := ⟨some f, some j, some f, n⟩) rfl rfl (compact_holds fv) hone
      (Cmp.emits_message m.name hn CALL (n + 1) f)
      (Cmp.emits_args fv f hf (h1 fuel (by omega)) h2) (Cmp.emits_end fv f) (by rw [List.append_nil]; exact hs)
      (fun w t => recv_exception (L := L) (mem := mem) (S := S) (m := m) K (compact_reads fv) (c := ⟨some f, some j, some f, n + 1⟩) rfl
        (Cmp.reads_header fv m.name hn EXCEPTION (n + 1) (by decide) j h10) rj (Cmp.runs_end fv j') w t) t ht
    exact ⟨t', j', e, ht', hj'⟩

/-- A call of a method that the server's version does not have. -/
theorem compact_across_unknown (K : Link C V up down cbuf vbuf) (hS : S.Ok) (hc : S.Compactable) (h10 : 10 ≤ fv) (hf : f.booleanField = none)
    {a : Attrs} (hm : CompactAcross S S' sv m a) (hk : ∀ n ∈ sv.methods, n.name ≠ m.name) (h : η) :
    ∃ N, ∀ fuel, N ≤ fuel → ∀ (n : I32) (j i o : Cmp) t, j.boolValueIsNotNull = false →
      i.boolValueIsNotNull = false → o.booleanField = none → Settled up down cbuf vbuf t → ∃ t' j',
      (Client.call (compact fv) S L mem msd fuel m a).run (served C V (process (compact fv) (compact fv) S' L mem msd fuel sv))
        ⟨some f, some j, some f, n⟩ (some ⟨i, o, h⟩, t) =
        (.ok ((none, some ⟨.application, UNKNOWN_METHOD, ascii "Unknown function " ++ m.name⟩), ⟨some f, some j', some f, n + 1⟩), (none, t')) ∧
        Settled up down cbuf vbuf t' := by
  have hn : m.name.length < 2 ^ 31 := by have := hm.sound.name; omega
  have hone := hm.sound.reply
  obtain ⟨fs, N, as', h1, h2, -, -, -, h6⟩ := compact_args (L := L) (mem := mem) hS hc hm.sound.args hm.typed hm.kept
  have hf' : sv.find m.name = none := by
    rw [Service.find, List.find?_eq_none]
    intro x hmem
    simpa using fun h => hk x hmem h.symm
  have hl : (newTApplicationException UNKNOWN_METHOD (ascii "Unknown function " ++ m.name)).message.length < 2 ^ 31 := by
    have : (ascii "Unknown function ").length = 17 := by decide
    have := hm.sound.name
    simp only [newTApplicationException, List.length_append]; omega
  refine ⟨max N (max (Val.struct fs).size 3), fun fuel hfu n j i o t hj hi ho ht => ?_⟩
  obtain ⟨i', hd, -⟩ := Cmp.dec_val fv h10 (.struct fs) i hi h2 h6.1
  rw [h6.2] at hd
  obtain ⟨j', hj', rj⟩ := Cmp.reads_app (msd := msd) fv h10 _ hl j hj fuel (by omega)
  have hs := K.server.serves_other (ip := compact fv) (op := compact fv) (h := h) (S := S') (L := L) (mem := mem) (msd := msd)
    (Cmp.reads_header fv m.name hn CALL (n + 1) (by decide) i h10) hf'
    (K.server.serves_unknown (Dec.skip msd (.struct fs) fuel msd (by omega) hd) (Cmp.runs_end fv i')
      (K.server.compact_exception fv m.name hn _ hl (n + 1) o ho))
  obtain ⟨t', e, ht'⟩ := call_run K (p := compact fv) (c := ⟨some f, some j, some f, n⟩) rfl rfl (compact_holds fv) hone
    (Cmp.emits_message m.name hn CALL (n + 1) f)
    (Cmp.emits_args fv f hf (h1 fuel (by omega)) h2) (Cmp.emits_end fv f) (by rw [List.append_nil]; exact hs)
    (fun w t => recv_exception (L := L) (mem := mem) (S := S) (m := m) K (compact_reads fv) (c := ⟨some f, some j, some f, n + 1⟩) rfl
      (Cmp.reads_header fv m.name hn EXCEPTION (n + 1) (by decide) j h10) rj (Cmp.runs_end fv j') w t) t ht
  exact ⟨t', j', e, ht'⟩

theorem compact_across_gone (K : Link C V up down cbuf vbuf) (hS : S.Ok) (hc : S.Compactable) (hf : f.booleanField = none) :
    ∀ cs : List (Method × Attrs), (∀ c ∈ cs, CompactAcross S S' sv c.1 c.2) →
    ∃ rs N, rs.length = cs.length ∧ (∀ x ∈ rs, x.1 = none ∧ x.2.isSome = true) ∧
      ∀ fuel, N ≤ fuel → ∀ (n : I32) (j : Cmp) t, down t = [] → ∃ c' x,
      (callAll (Client.call (compact fv) S L mem msd fuel) cs).run
        (served C V (process (ω := Cmp) (compact fv) (compact fv) S' L mem msd fuel sv))
        ⟨some f, some j, some f, n⟩ (none, t) = (.ok (rs, c'), x)
  | [], _ => ⟨[], 0, rfl, (by intro x hx; cases hx), fun fuel _ n j t _ => ⟨_, _, rfl⟩⟩
  | (m, a) :: cs, h => by
    obtain ⟨rs, N, h1, h2, h3⟩ := compact_across_gone K hS hc hf cs fun c hc => h c (List.mem_cons_of_mem _ hc)
    have hm := h (m, a) List.mem_cons_self
    obtain ⟨fs, M, as', a1, a2, -⟩ := compact_args (L := L) (mem := mem) hS hc hm.sound.args hm.typed hm.kept
    have hr : ∀ j : Cmp, ∀ out, (compact fv).readMessageBegin.run duplex j ([], out) =
        (.ok ((([], 0, 0), some (newTProtocolException BAD_VERSION (ascii "Expected protocol id"))), j), ([], out)) := fun _ _ => rfl
    refine ⟨(none, some (newTProtocolException BAD_VERSION (ascii "Expected protocol id"))) :: rs, max N M, by simp [h1], ?_,
      fun fuel hfu n j t ht => ?_⟩
    · intro x hx
      rcases List.mem_cons.mp hx with rfl | hx
      · exact ⟨rfl, rfl⟩
      · exact h2 x hx
    · obtain ⟨t', e1, ht'⟩ := call_gone (L := L) (mem := mem) (msd := msd)
        (proc := process (ω := Cmp) (compact fv) (compact fv) S' L mem msd fuel sv) K (compact_reads fv)
        (c := ⟨some f, some j, some f, n⟩) rfl rfl rfl (compact_holds fv) hm.sound.reply
        (Cmp.emits_message m.name (by have := hm.sound.name; simp only at this; omega) CALL (n + 1) f) (Cmp.emits_args fv f hf (a1 fuel (by omega)) a2) (Cmp.emits_end fv f)
        (hr j) t ht
      obtain ⟨c', x, e2⟩ := h3 fuel (by omega) (n + 1) j t' ht'
      refine ⟨c', x, ?_⟩
      rw [callAll, P.run_bind, e1, andThen_ok, P.run_bind, e2, andThen_ok, P.run_pure]

theorem compact_across_calls (K : Link C V up down cbuf vbuf) (hS : S.Ok) (hS' : S'.Ok) (hv : Versions S S') (hv' : Versions S' S)
    (hl : lax ∨ SameDefaults S S' ∧ SameDefaults S' S) (hc : S.Compactable) (hc' : S'.Compactable) (h10 : 10 ≤ fv)
    (hf : f.booleanField = none) : ∀ (cs : List (Method × Attrs)) (h : η),
    (∀ c ∈ cs, CompactAcross S S' sv c.1 c.2 ∧ Forewarned S S' c.1) → ∃ rs N, AnsweredAcross S S' lax sv h cs rs ∧
      ∀ fuel, N ≤ fuel → ∀ (n : I32) (j i o : Cmp) t, j.boolValueIsNotNull = false →
        i.boolValueIsNotNull = false → o.booleanField = none → Settled up down cbuf vbuf t → ∃ c' x,
      (callAll (Client.call (compact fv) S L mem msd fuel) cs).run (served C V (process (compact fv) (compact fv) S' L mem msd fuel sv))
        ⟨some f, some j, some f, n⟩ (some ⟨i, o, h⟩, t) = (.ok (rs, c'), x)
  | [], h, _ => ⟨[], 0, .nil h, fun fuel _ n j i o t _ _ _ _ => ⟨_, _, rfl⟩⟩
  | (m, a) :: cs, h, hs => by
    obtain ⟨hm, hw⟩ := hs (m, a) List.mem_cons_self
    have hgone := compact_across_gone (L := L) (mem := mem) (msd := msd) (f := f) (sv := sv) (fv := fv) (S' := S') K hS hc hf cs
      fun c hc => (hs c (List.mem_cons_of_mem _ hc)).1
    rcases hm.sound.known with hk | hk
    · obtain ⟨as', ha, hgood, hbad⟩ := compact_across_call (L := L) (mem := mem) (msd := msd) K hS hS' hv hv' hl hc hc' h10 hf hm hk
      rcases hh : sv.handle m h as' with ⟨⟨r, _ | e⟩, h'⟩
      · obtain ⟨rs, N, h1, h2⟩ := compact_across_calls K hS hS' hv hv' hl hc hc' h10 hf cs h' fun c hc => hs c (List.mem_cons_of_mem _ hc)
        obtain ⟨r', hr', M, h3⟩ := hgood h r h' hh
        refine ⟨(some r', none) :: rs, max N M, .cons ha hh ⟨r', rfl, hr', thrown_across hm.sound.result' hr' hw⟩ h1,
          fun fuel hfu n j i o t hj hi ho ht => ?_⟩
        obtain ⟨t', j', i', e1, ht', hj', hi'⟩ := h3 fuel (by omega) n j i o t hj hi ho ht
        obtain ⟨c', x, e2⟩ := h2 fuel (by omega) (n + 1) j' i' o t' hj' hi' ho ht'
        refine ⟨c', x, ?_⟩
        rw [callAll, P.run_bind, e1, andThen_ok, P.run_bind, e2, andThen_ok, P.run_pure]
      · obtain ⟨rs, N, l1, l2, h2⟩ := hgone
        obtain ⟨M, h3⟩ := hbad h r e h' hh
        refine ⟨(none, some (internalError m.name e).err) :: rs, max N M, .stop ha hh rfl l1 l2, fun fuel hfu n j i o t hj hi ho ht => ?_⟩
        obtain ⟨t', j', e1, ht', hj'⟩ := h3 fuel (by omega) n j i o t hj hi ho ht
        obtain ⟨c', x, e2⟩ := h2 fuel (by omega) (n + 1) j' t' ht'.down
        refine ⟨c', x, ?_⟩
        rw [callAll, P.run_bind, e1, andThen_ok, P.run_bind, e2, andThen_ok, P.run_pure]
    · obtain ⟨rs, N, l1, l2, h2⟩ := hgone
      obtain ⟨M, h3⟩ := compact_across_unknown (L := L) (mem := mem) (msd := msd) (fv := fv) K hS hc h10 hf hm hk h
      refine ⟨_ :: rs, max N M, .unknown hk l1 l2, fun fuel hfu n j i o t hj hi ho ht => ?_⟩
      obtain ⟨t', j', e1, ht'⟩ := h3 fuel (by omega) n j i o t hj hi ho ht
      obtain ⟨c', x, e2⟩ := h2 fuel (by omega) (n + 1) j' t' ht'.down
      refine ⟨c', x, ?_⟩
      rw [callAll, P.run_bind, e1, andThen_ok, P.run_bind, e2, andThen_ok, P.run_pure]

end
end Thrift
