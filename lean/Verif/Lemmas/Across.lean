import Verif.Lemmas.BinaryService
import Verif.Lemmas.Versions
import Verif.Spec.Across
/-!
# Calls between two versions of a service
-/

namespace Thrift

variable {S S' : Schema} {L : FloatLib} {mem : List Nat → Nat} {msd : Int} {lax : Prop}

theorem Received.moved {k p q p' q' : Nat} {as bs : Attrs}
    (h : Received S S' lax (.struct k) ((S.structs k).object p as) ((S'.structs k).object q bs)) :
    Received S S' lax (.struct k) ((S.structs k).object p' as) ((S'.structs k).object q' bs) := by
  generalize hx : (S.structs k).object p as = x at h
  generalize hy : (S'.structs k).object q bs = y at h
  cases h with
  | leaf ht => exact ht.elim
  | struct ids new unset set =>
    simp only [StructDef.object, Dyn.struct.injEq] at hx hy
    obtain ⟨-, -, -, -, -, rfl⟩ := hx
    obtain ⟨-, -, -, -, -, rfl⟩ := hy
    exact Received.struct ids new unset set

/-- The tree of an arguments object and what the reader of the other version makes of it. -/
theorem args_across (hS : S.Ok) (hS' : S'.Ok) (hv : Versions S S') (hlax : lax ∨ SameDefaults S S') {k : Nat} {attrs : Attrs}
    (hf : Fine S (.struct k) ((S.structs k).object 0 attrs)) :
    ∃ fs N as', (∀ fuel, N ≤ fuel → flatMembers S (flatVal true S fuel) attrs (S.structs k).sorted = some fs) ∧ fs.WF ∧
      fs.Conforms S' (S'.structs k) ∧ buildFields S' L mem fs [] (S'.structs k) ((S'.structs k).fresh S') = .ok as' ∧
      ReceivedAttrs S S' lax k attrs as' := by
  obtain ⟨-, check, nonempty, hfine⟩ := hf.struct_inv
  obtain ⟨fs, N, h1, h2, h3, h4⟩ := passes_struct (L := L) (mem := mem) (ptr := 0) (hS k) (hS' k) (hv.types k)
    (hlax.imp id fun h => h k) check nonempty hfine fun m hm hu => (hfine m hm hu).passes hS hS' hv hlax
  obtain ⟨as', hb, hs⟩ := h4 []
  exact ⟨fs, N, as', h1, h2, h3, hb, hs.moved⟩

/-- The tree of a result object and what the reader of the other version makes of it. -/
theorem result_across (hS : S.Ok) (hS' : S'.Ok) (hv : Versions S S') (hlax : lax ∨ SameDefaults S S') {k : Nat} {r : Attrs}
    (hf : Fine S (.struct k) ((S.structs k).object 0 r)) (hd : ResultDef (S.structs k)) (hd' : ResultDef (S'.structs k))
    (ho : OneOutcome S (S.structs k) r) :
    ∃ fs N r', (∀ fuel, N ≤ fuel → flatMembers S (flatVal true S fuel) r (pickResult r (S.structs k).sorted.reverse).toList = some fs) ∧
      fs.WF ∧ fs.Conforms S' (S'.structs k) ∧ buildFields S' L mem fs [] (S'.structs k) ((S'.structs k).fresh S') = .ok r' ∧
      ReceivedAttrs S S' lax k r r' := by
  obtain ⟨ids, check, nonempty, hfine⟩ := hf.struct_inv
  have hmem : ∀ m ∈ (pickResult r (S.structs k).sorted.reverse).toList, m ∈ (S.structs k).members := by
    have := pickResult_spec r (S.structs k).sorted.reverse
    revert this
    cases pickResult r (S.structs k).sorted.reverse with
    | none => intro _ m hm; cases hm
    | some x =>
      rintro ⟨h, -⟩ m hm
      rw [Option.toList_some, List.mem_singleton] at hm
      rw [hm]; exact mem_sorted.mp (List.mem_reverse.mp h)
  have hun : ∀ m ∈ (S.structs k).members, m.written S (attributeOf r m.id.toInt) = true →
      ¬ m.Unset S (attributeOf r m.id.toInt) := by
    rintro m _ hw ⟨_, h⟩
    rcases h with ⟨hn, hd⟩ | ⟨j, hj, hd⟩
    · rw [hd] at hw; simp [Member.written, hn.can, Dyn.isNil] at hw
    · rw [hd] at hw; simp [Member.written, hj, Ty.canBeNil, Ty.isEnum, Member.isSet] at hw
  -- the fields that are not written hold their initial values
  have hrest : ∀ m ∈ (S.structs k).members, m ∉ (pickResult r (S.structs k).sorted.reverse).toList →
      attributeOf r m.id.toInt = m.initial S := by
    intro m hm hnot
    have hrev : ∀ n, n ∈ (S.structs k).sorted.reverse ↔ n ∈ (S.structs k).members := fun n => by
      rw [List.mem_reverse, mem_sorted]
    have hcase : ∀ n ∈ (S.structs k).members, n.id ≠ 0 → n.isCase = true := by
      intro n hn h0
      obtain ⟨j, hj⟩ := hd.exceptions n hn h0
      simp only [Member.isCase, hj, Ty.canBeNil, Bool.true_and]; exact decide_eq_true h0
    have hnil : ∀ n ∈ (S.structs k).members, n.isCase = true → (attributeOf r n.id.toInt).isNil = true →
        attributeOf r n.id.toInt = n.initial S := by
      intro n hn hc hi
      simp only [Member.isCase, Bool.and_eq_true] at hc
      rw [initial_nil (hd.plain n hn) hc.1, isNil_eq hi]
    have := pickResult_spec r (S.structs k).sorted.reverse
    revert this hnot
    cases pickResult r (S.structs k).sorted.reverse with
    | none =>
      intro _ h
      exact hnil m hm (h m ((hrev m).mpr hm)).1 (h m ((hrev m).mpr hm)).2
    | some x =>
      rintro hnot ⟨h1, h2⟩
      have hx := (hrev x).mp h1
      have hne : m.id ≠ x.id := fun h => hnot (by rw [member_unique (hS k) hm hx h]; simp)
      rcases h2 with ⟨hc, hi⟩ | ⟨hc, hi⟩
      · rcases ho m hm x hx hne with h | h
        · exact h
        · simp only [Member.isCase, Bool.and_eq_true] at hc
          rw [h, initial_nil (hd.plain x hx) hc.1] at hi
          cases hi
      · by_cases h0 : x.id = 0
        · have hc := hcase m hm (fun h => hne (h.trans h0.symm))
          exact hnil m hm hc (hi m ((hrev m).mpr hm) hc)
        · rw [hcase x hx h0] at hc; cases hc
  obtain ⟨fs, N, h1, h2, h3, h4⟩ := passes_members (lax := lax) (L := L) (mem := mem) (hS k) (hS' k) (hv.types k) r _ hmem
    (by cases pickResult r (S.structs k).sorted.reverse <;> simp)
    (fun m hm hw => (hfine m (hmem m hm) (hun m (hmem m hm) hw)).passes hS hS' hv hlax)
  obtain ⟨r', b1, b2, b3, b4⟩ := h4 [] _ (fresh_ids _)
  have hinit : ∀ m ∈ (S.structs k).members, ∀ m' ∈ (S'.structs k).members, m.id = m'.id →
      ¬ (m ∈ (pickResult r (S.structs k).sorted.reverse).toList ∧ m.written S (attributeOf r m.id.toInt) = true) →
      attributeOf r' m.id.toInt = m'.initial S' := by
    intro m hm m' hm' he hw
    rw [b3 _ fun x hx hxw hc => ?_, he, attributeOf_fresh (hS' k) hm']
    rw [member_unique (hS k) (hmem x hx) hm (toInt_inj hc)] at hxw hx
    exact hw ⟨hx, hxw⟩
  have hsame : ∀ m ∈ (S.structs k).members, ∀ m' ∈ (S'.structs k).members, m.dflt = m'.dflt := fun m hm m' hm' =>
    (hd.plain m hm).trans (hd'.plain m' hm').symm
  refine ⟨fs, N, r', h1, h2, h3, b1, Received.struct (b2.trans (fresh_ids _)) (fun m' hm' hno => ?_) (fun m hm m' hm' he hu => ?_)
    (fun m hm m' hm' he hu hlx => ?_)⟩
  · rw [b3 _ fun x hx _ hc => hno x (hmem x hx) (toInt_inj hc), attributeOf_fresh (hS' k) hm']
  · exact hinit m hm m' hm' he fun hw => hun m hm hw.2 hu
  · by_cases hp : m ∈ (pickResult r (S.structs k).sorted.reverse).toList
    · by_cases hw : m.written S (attributeOf r m.id.toInt) = true
      · exact b4 m hp hw ⟨m', hm', he⟩
      · obtain ⟨u1, u2, u3⟩ := unwritten_leaf (check m hm) (nonempty m hm) (hfine m hm hu) hw
        have hi := hinit m hm m' hm' he fun h => hw h.2
        have hnl : ¬ lax := fun hl => hlx ⟨hl, u1, u2, u3, hi⟩
        rw [hi, ← initial_leaf (S := S) (hv.types k m hm m' hm' he) (hsame m hm m' hm') u2]
        exact .leaf u2 u3 fun h => absurd h hnl
    · rw [hinit m hm m' hm' he fun h => hp h.1, hrest m hm hp]
      rw [hrest m hm hp] at hu
      have hl : m.ty.Leaf := by
        cases hty : m.ty with
        | struct | list | set | map =>
          exact hu ⟨hd.plain m hm, .inl ⟨by rw [hty]; trivial, initial_nil (hd.plain m hm) (by rw [hty]; rfl)⟩⟩
        | enum j => exact hu ⟨hd.plain m hm, .inr ⟨j, hty, by simp [Member.initial, hd.plain m hm, hty]⟩⟩
        | _ => trivial
      rw [← initial_leaf (S := S) (hv.types k m hm m' hm' he) (hsame m hm m' hm') hl]
      exact .leaf hl (Same.refl _) fun _ => rfl

/-- An exception that both versions know stays one. -/
theorem thrown_across (hd : ResultDef (S.structs k)) {r r' : Attrs} (h : ReceivedAttrs S S' lax k r r')
    (hn : ∀ n ∈ (S.structs k).members, n.id ≠ 0 → ∃ n' ∈ (S'.structs k).members, n.id = n'.id)
    (ht : Thrown (S.structs k) r) : Thrown (S'.structs k) r' := by
  obtain ⟨n, hm, h0, hset⟩ := ht
  obtain ⟨n', hm', he⟩ := hn n hm h0
  obtain ⟨j, hj⟩ := hd.exceptions n hm h0
  refine ⟨n', hm', he ▸ h0, ?_⟩
  unfold ReceivedAttrs at h
  generalize hx : (S.structs k).object 0 r = x at h
  generalize hy : (S'.structs k).object 0 r' = y at h
  cases h with
  | leaf ht => exact ht.elim
  | struct ids new unset set =>
    simp only [StructDef.object, Dyn.struct.injEq] at hx hy
    obtain ⟨-, -, -, -, -, rfl⟩ := hx
    obtain ⟨-, -, -, -, -, rfl⟩ := hy
    have hu : ¬ n.Unset S (attributeOf r n.id.toInt) := by
      rintro ⟨-, ⟨-, h⟩ | ⟨i, h, -⟩⟩
      · exact hset h
      · rw [hj] at h; cases h
    have := set n hm n' hm' he hu (by
      rintro ⟨-, -, -, hs, -⟩
      rw [initial_nil (hd.plain n hm) (by rw [hj]; rfl)] at hs
      generalize attributeOf r n.id.toInt = d at hs hset
      cases hs
      exact hset rfl)
    rw [hj] at this
    rw [← he]
    generalize attributeOf r' n.id.toInt = d' at this
    generalize attributeOf r n.id.toInt = d at this
    cases this with
    | leaf ht => exact ht.elim
    | struct => simp [StructDef.object]

section
variable {σ η : Type} {C V : Transport σ} {up down cbuf vbuf : σ → Bytes} {sv : Service η} {m : Method} {f i o : Bin}

theorem across_call (K : Link C V up down cbuf vbuf) (hS : S.Ok) (hS' : S'.Ok) (hv : Versions S S') (hv' : Versions S' S)
    (hl : lax ∨ SameDefaults S S' ∧ SameDefaults S' S) (hc : Compatible f i o) {a : Attrs} (hm : SoundAcross S S' sv m a)
    (hk : sv.find m.name = some m) :
    ∃ as', ReceivedAttrs S S' lax m.args a as' ∧
      (∀ h r h', sv.handle m h as' = ((r, none), h') →
        ∃ r', ReceivedAttrs S' S lax m.result r r' ∧ ∃ N, ∀ fuel, N ≤ fuel → ∀ (n : I32) t, Settled up down cbuf vbuf t → ∃ t',
          (Client.call binary S L mem msd fuel m a).run (served C V (process binary binary S' L mem msd fuel sv))
            ⟨some f, some f, some f, n⟩ (some ⟨i, o, h⟩, t) =
            (.ok ((some r', none), ⟨some f, some f, some f, n + 1⟩), (some ⟨i, o, h'⟩, t')) ∧ Settled up down cbuf vbuf t') ∧
      (∀ h r e h', sv.handle m h as' = ((r, some e), h') →
        ∃ N, ∀ fuel, N ≤ fuel → ∀ (n : I32) t, Settled up down cbuf vbuf t → ∃ t',
          (Client.call binary S L mem msd fuel m a).run (served C V (process binary binary S' L mem msd fuel sv))
            ⟨some f, some f, some f, n⟩ (some ⟨i, o, h⟩, t) =
            (.ok ((none, some (internalError m.name e).err), ⟨some f, some f, some f, n + 1⟩), (none, t')) ∧
            Settled up down cbuf vbuf t') := by
  have hn : m.name.length < 2 ^ 31 := by have := hm.name; omega
  have hone := hm.reply
  obtain ⟨fs, N, as', h1, h2, h3, h4, h5⟩ := args_across (L := L) (mem := mem) hS hS' hv (hl.imp id (·.1)) hm.args
  refine ⟨as', h5, ?_, ?_⟩
  · intro h r h' hh
    obtain ⟨hr, ho⟩ := hm.fine h as' r h' hh
    obtain ⟨gs, M, r', g1, g2, g3, g4, g5⟩ := result_across (L := L) (mem := mem) hS' hS hv' (hl.imp id (·.2)) hr hm.result' hm.result ho
    refine ⟨r', g5, max (max N M) (max fs.size gs.size), fun fuel hfu n t ht => ?_⟩
    have hs := K.server.serves_known (S := S') (L := L) (mem := mem) (msd := msd) (fuel := fuel) (op := binary)
      (Bin.reads_header f.strictWrite m.name CALL (n + 1) hn (by decide) i hc.server hc.up) hk
      (K.server.serves_reply (Bin.reads_object (msd := msd) hS' i hc.server (hS' _) (show fs.size ≤ fuel by omega) h2 h3 h4) (Bin.runs_end i) hh
        (by rw [hone]; exact K.server.binary_reply hn (n + 1) o (g1 fuel (by omega)) g2))
    obtain ⟨t', e, ht'⟩ := call_run K (c := ⟨some f, some f, some f, n⟩) rfl rfl binary_holds hone (Bin.emits_header m.name CALL (n + 1) hn (by decide) f)
      (binary_writes f (h1 fuel (by omega)) h2) (Bin.emits_end f) (by rw [List.append_nil]; exact hs)
      (fun w t => recv_reply K binary_reads (c := ⟨some f, some f, some f, n + 1⟩) rfl (by decide)
        (Bin.reads_header o.strictWrite m.name REPLY (n + 1) hn (by decide) f hc.client hc.down)
        (Bin.reads_object (L := L) (mem := mem) (msd := msd) hS f hc.client (hS _) (show gs.size ≤ fuel by omega) g2 g3 g4) (Bin.runs_end f) w t) t ht
    exact ⟨t', e, ht'⟩
  · intro h r e h' hh
    have hl := internal_length (hm.message h as' r e h' hh)
    refine ⟨max N (max fs.size 3), fun fuel hfu n t ht => ?_⟩
    have hs := K.server.serves_known (S := S') (L := L) (mem := mem) (msd := msd) (fuel := fuel) (op := binary)
      (Bin.reads_header f.strictWrite m.name CALL (n + 1) hn (by decide) i hc.server hc.up) hk
      (K.server.serves_failure (Bin.reads_object (msd := msd) hS' i hc.server (hS' _) (show fs.size ≤ fuel by omega) h2 h3 h4) (Bin.runs_end i) hh
        (K.server.binary_exception m.name hn (internalError m.name e) hl (n + 1) o))
    obtain ⟨t', e, ht'⟩ := call_run K (c := ⟨some f, some f, some f, n⟩) rfl rfl binary_holds hone (Bin.emits_header m.name CALL (n + 1) hn (by decide) f)
      (binary_writes f (h1 fuel (by omega)) h2) (Bin.emits_end f) (by rw [List.append_nil]; exact hs)
      (fun w t => recv_exception (L := L) (mem := mem) (S := S) (m := m) K binary_reads (c := ⟨some f, some f, some f, n + 1⟩) rfl
        (Bin.reads_header o.strictWrite m.name EXCEPTION (n + 1) hn (by decide) f hc.client hc.down)
        (Bin.reads_app (msd := msd) _ hl f hc.client fuel (by omega)) (Bin.runs_end f) w t) t ht
    exact ⟨t', e, ht'⟩

/-- A call of a method that the server's version does not have. -/
theorem across_unknown (K : Link C V up down cbuf vbuf) (hS : S.Ok) (hc : Compatible f i o) {a : Attrs} (hm : SoundAcross S S' sv m a)
    (hk : ∀ n ∈ sv.methods, n.name ≠ m.name) (h : η) :
    ∃ N, ∀ fuel, N ≤ fuel → ∀ (n : I32) t, Settled up down cbuf vbuf t → ∃ t',
      (Client.call binary S L mem msd fuel m a).run (served C V (process binary binary S' L mem msd fuel sv))
        ⟨some f, some f, some f, n⟩ (some ⟨i, o, h⟩, t) =
        (.ok ((none, some ⟨.application, UNKNOWN_METHOD, ascii "Unknown function " ++ m.name⟩), ⟨some f, some f, some f, n + 1⟩), (none, t')) ∧
        Settled up down cbuf vbuf t' := by
  have hn : m.name.length < 2 ^ 31 := by have := hm.name; omega
  have hone := hm.reply
  obtain ⟨fs, N, as', h1, h2, -⟩ := args_tree (L := L) (mem := mem) hS hm.args
  have hf' : sv.find m.name = none := by
    rw [Service.find, List.find?_eq_none]
    intro x hmem
    simpa using fun h => hk x hmem h.symm
  have hl : (newTApplicationException UNKNOWN_METHOD (ascii "Unknown function " ++ m.name)).message.length < 2 ^ 31 := by
    have : (ascii "Unknown function ").length = 17 := by decide
    have := hm.name
    simp only [newTApplicationException, List.length_append]; omega
  refine ⟨max N (max (Val.struct fs).size 3), fun fuel hfu n t ht => ?_⟩
  have hs := K.server.serves_other (ip := binary) (op := binary) (h := h) (S := S') (L := L) (mem := mem) (msd := msd)
    (Bin.reads_header f.strictWrite m.name CALL (n + 1) hn (by decide) i hc.server hc.up) hf'
    (K.server.serves_unknown (Dec.skip msd (.struct fs) fuel msd (by omega) (Bin.dec_val (.struct fs) i hc.server h2)) (Bin.runs_end i)
      (K.server.binary_exception m.name hn _ hl (n + 1) o))
  obtain ⟨t', e, ht'⟩ := call_run K (c := ⟨some f, some f, some f, n⟩) rfl rfl binary_holds hone (Bin.emits_header m.name CALL (n + 1) hn (by decide) f)
    (binary_writes f (h1 fuel (by omega)) h2) (Bin.emits_end f) (by rw [List.append_nil]; exact hs)
    (fun w t => recv_exception (L := L) (mem := mem) (S := S) (m := m) K binary_reads (c := ⟨some f, some f, some f, n + 1⟩) rfl
      (Bin.reads_header o.strictWrite m.name EXCEPTION (n + 1) hn (by decide) f hc.client hc.down)
      (Bin.reads_app (msd := msd) _ hl f hc.client fuel (by omega)) (Bin.runs_end f) w t) t ht
  exact ⟨t', e, ht'⟩

theorem across_gone (K : Link C V up down cbuf vbuf) (hS : S.Ok) (hf : f.checkReadLength = false) : ∀ cs : List (Method × Attrs),
    (∀ c ∈ cs, SoundAcross S S' sv c.1 c.2) →
    ∃ rs N, rs.length = cs.length ∧ (∀ x ∈ rs, x.1 = none ∧ x.2.isSome = true) ∧
      ∀ fuel, N ≤ fuel → ∀ (n : I32) t, down t = [] → ∃ c' x,
      (callAll (Client.call binary S L mem msd fuel) cs).run (served C V (process (ω := Bin) binary binary S' L mem msd fuel sv))
        ⟨some f, some f, some f, n⟩ (none, t) = (.ok (rs, c'), x)
  | [], _ => ⟨[], 0, rfl, (by intro x hx; cases hx), fun fuel _ n t _ => ⟨_, _, rfl⟩⟩
  | (m, a) :: cs, h => by
    obtain ⟨rs, N, h1, h2, h3⟩ := across_gone K hS hf cs fun c hc => h c (List.mem_cons_of_mem _ hc)
    have hm := h (m, a) List.mem_cons_self
    obtain ⟨fs, M, as', g1, g2, -⟩ := args_tree (L := L) (mem := mem) hS hm.args
    obtain ⟨x, e, hr⟩ := Bin.header_missing f hf
    refine ⟨(none, some e) :: rs, max N M, by simp [h1], ?_, fun fuel hfu n t ht => ?_⟩
    · intro x hx
      rcases List.mem_cons.mp hx with rfl | hx
      · exact ⟨rfl, rfl⟩
      · exact h2 x hx
    · obtain ⟨t', e1, ht'⟩ := call_gone (proc := process (ω := Bin) binary binary S' L mem msd fuel sv) K binary_reads (L := L) (mem := mem) (msd := msd)
        (c := ⟨some f, some f, some f, n⟩) rfl rfl rfl binary_holds hm.reply
        (Bin.emits_header m.name CALL (n + 1) (by have := hm.name; simp only at this; omega) (by decide) f) (binary_writes f (g1 fuel (by omega)) g2) (Bin.emits_end f) hr t ht
      obtain ⟨c', x, e2⟩ := h3 fuel (by omega) (n + 1) t' ht'
      refine ⟨c', x, ?_⟩
      rw [callAll, P.run_bind, e1, andThen_ok, P.run_bind, e2, andThen_ok, P.run_pure]

theorem across_calls (K : Link C V up down cbuf vbuf) (hS : S.Ok) (hS' : S'.Ok) (hv : Versions S S') (hv' : Versions S' S)
    (hl : lax ∨ SameDefaults S S' ∧ SameDefaults S' S) (hc : Compatible f i o) : ∀ (cs : List (Method × Attrs)) (h : η),
    (∀ c ∈ cs, SoundAcross S S' sv c.1 c.2 ∧ Forewarned S S' c.1) → ∃ rs N, AnsweredAcross S S' lax sv h cs rs ∧
      ∀ fuel, N ≤ fuel → ∀ (n : I32) t, Settled up down cbuf vbuf t → ∃ c' x,
      (callAll (Client.call binary S L mem msd fuel) cs).run (served C V (process binary binary S' L mem msd fuel sv))
        ⟨some f, some f, some f, n⟩ (some ⟨i, o, h⟩, t) = (.ok (rs, c'), x)
  | [], h, _ => ⟨[], 0, .nil h, fun fuel _ n t _ => ⟨_, _, rfl⟩⟩
  | (m, a) :: cs, h, hs => by
    obtain ⟨hm, hw⟩ := hs (m, a) List.mem_cons_self
    have hgone := across_gone (L := L) (mem := mem) (msd := msd) (f := f) (sv := sv) K hS hc.client cs
      fun c hc => (hs c (List.mem_cons_of_mem _ hc)).1
    rcases hm.known with hk | hk
    · obtain ⟨as', ha, hgood, hbad⟩ := across_call (L := L) (mem := mem) (msd := msd) K hS hS' hv hv' hl hc hm hk
      rcases hh : sv.handle m h as' with ⟨⟨r, _ | e⟩, h'⟩
      · obtain ⟨rs, N, h1, h2⟩ := across_calls K hS hS' hv hv' hl hc cs h' fun c hc => hs c (List.mem_cons_of_mem _ hc)
        obtain ⟨r', hr', M, h3⟩ := hgood h r h' hh
        refine ⟨(some r', none) :: rs, max N M, .cons ha hh ⟨r', rfl, hr', thrown_across hm.result' hr' hw⟩ h1, fun fuel hfu n t ht => ?_⟩
        obtain ⟨t', e1, ht'⟩ := h3 fuel (by omega) n t ht
        obtain ⟨c', x, e2⟩ := h2 fuel (by omega) (n + 1) t' ht'
        refine ⟨c', x, ?_⟩
        rw [callAll, P.run_bind, e1, andThen_ok, P.run_bind, e2, andThen_ok, P.run_pure]
      · obtain ⟨rs, N, l1, l2, h2⟩ := hgone
        obtain ⟨M, h3⟩ := hbad h r e h' hh
        refine ⟨(none, some (internalError m.name e).err) :: rs, max N M, .stop ha hh rfl l1 l2, fun fuel hfu n t ht => ?_⟩
        obtain ⟨t', e1, ht'⟩ := h3 fuel (by omega) n t ht
        obtain ⟨c', x, e2⟩ := h2 fuel (by omega) (n + 1) t' ht'.down
        refine ⟨c', x, ?_⟩
        rw [callAll, P.run_bind, e1, andThen_ok, P.run_bind, e2, andThen_ok, P.run_pure]
    · obtain ⟨rs, N, l1, l2, h2⟩ := hgone
      obtain ⟨M, h3⟩ := across_unknown (L := L) (mem := mem) (msd := msd) K hS hc hm hk h
      refine ⟨_ :: rs, max N M, .unknown hk l1 l2, fun fuel hfu n t ht => ?_⟩
      obtain ⟨t', e1, ht'⟩ := h3 fuel (by omega) n t ht
      obtain ⟨c', x, e2⟩ := h2 fuel (by omega) (n + 1) t' ht'.down
      refine ⟨c', x, ?_⟩
      rw [callAll, P.run_bind, e1, andThen_ok, P.run_bind, e2, andThen_ok, P.run_pure]

end
end Thrift
