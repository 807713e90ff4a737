import Verif.Lemmas.Run
import Verif.Model.Driver
import Verif.Model.Skip
/-!
# What a protocol's read calls make of some bytes

`Dec p v s s' bs`: the read calls of protocol `p`, made in the order in which a
reader of the value `v` makes them, take the object from `s` to `s'`, consume
`bs` and deliver the parts of `v`.  Every reader of values follows from it.
-/

namespace Thrift

mutual
def Dec (p : Proto π) : Val → π → π → Bytes → Prop
  | .bool b, s, s', bs => Reads p.readBool s s' bs b
  | .byte b, s, s', bs => Reads p.readByte s s' bs b
  | .i16 b, s, s', bs => Reads p.readI16 s s' bs b
  | .i32 b, s, s', bs => Reads p.readI32 s s' bs b
  | .i64 b, s, s', bs => Reads p.readI64 s s' bs b
  | .double b, s, s', bs => Reads p.readDouble s s' bs b
  | .str b, s, s', bs => Reads p.readString s s' bs b ∧ Reads p.readBinary s s' bs b
  | .struct fs, s, s', bs => ∃ s₁ s₂ a b c n, Reads p.readStructBegin s s₁ a n ∧ DecFields p fs s₁ s₂ b ∧
      Runs p.readStructEnd s₂ s' c none ∧ bs = a ++ (b ++ c)
  | .map kt vt ps, s, s', bs => ∃ s₁ s₂ a b c, Reads p.readMapBegin s s₁ a (kt, vt, (ps.length : Int)) ∧
      DecPairs p kt vt ps s₁ s₂ b ∧ Runs p.readMapEnd s₂ s' c none ∧ bs = a ++ (b ++ c)
  | .set t vs, s, s', bs => ∃ s₁ s₂ a b c, Reads p.readSetBegin s s₁ a (t, (vs.length : Int)) ∧
      DecVals p t vs s₁ s₂ b ∧ Runs p.readSetEnd s₂ s' c none ∧ bs = a ++ (b ++ c)
  | .list t vs, s, s', bs => ∃ s₁ s₂ a b c, Reads p.readListBegin s s₁ a (t, (vs.length : Int)) ∧
      DecVals p t vs s₁ s₂ b ∧ Runs p.readListEnd s₂ s' c none ∧ bs = a ++ (b ++ c)
def DecFields (p : Proto π) : Fields → π → π → Bytes → Prop
  | .nil, s, s', bs => ∃ id, Reads p.readFieldBegin s s' bs ([], TT.STOP, id)
  | .cons id v r, s, s', bs => ∃ s₁ s₂ s₃ a b c d, Reads p.readFieldBegin s s₁ a ([], v.type, id) ∧ Dec p v s₁ s₂ b ∧
      Runs p.readFieldEnd s₂ s₃ c none ∧ DecFields p r s₃ s' d ∧ bs = a ++ (b ++ (c ++ d))
def DecVals (p : Proto π) (t : Byte) : Vals → π → π → Bytes → Prop
  | .nil, s, s', bs => s' = s ∧ bs = []
  | .cons v r, s, s', bs => ∃ s₁ a b, v.type = t ∧ Dec p v s s₁ a ∧ DecVals p t r s₁ s' b ∧ bs = a ++ b
def DecPairs (p : Proto π) (kt vt : Byte) : Pairs → π → π → Bytes → Prop
  | .nil, s, s', bs => s' = s ∧ bs = []
  | .cons k v r, s, s', bs => ∃ s₁ s₂ a b c, k.type = kt ∧ v.type = vt ∧ Dec p k s s₁ a ∧ Dec p v s₁ s₂ b ∧
      DecPairs p kt vt r s₂ s' c ∧ bs = a ++ (b ++ c)
end

theorem Val.size_pos : ∀ v : Val, 0 < v.size
  | .bool _ | .byte _ | .i16 _ | .i32 _ | .i64 _ | .double _ | .str _ => by simp [Val.size]
  | .struct _ | .map .. | .set .. | .list .. => by simp [Val.size]

theorem Val.type_ne_stop (v : Val) : v.type ≠ TT.STOP := by
  cases v <;> (simp only [Val.type]; decide)

theorem reads_mapFst {m : P π (α × GoErr)} {s s' : π} {bs : Bytes} {a : α} (h : Reads m s s' bs a) (g : α → β) :
    Reads (do let (v, e) ← m; return (g v, e)) s s' bs (g a) := by
  intro rest out; simp [h rest out]

/-- One step of a reader: run the first call, drop the error test. -/
macro "rstep " h:term : tactic => `(tactic| (
  refine Runs.bind $h ?_
  try simp only [Option.isSome_none, Bool.false_eq_true, if_false]))

variable {p : Proto π}

/-! ## Reading into a value tree -/

mutual
theorem Dec.readVal : ∀ (v : Val) {s s' : π} {bs : Bytes} (fuel : Nat), v.size ≤ fuel → Dec p v s s' bs →
    Reads (readVal p fuel v.type) s s' bs v
  | .bool b, _, _, _, fuel + 1, _, h => reads_mapFst h _
  | .byte b, _, _, _, fuel + 1, _, h => reads_mapFst h _
  | .i16 b, _, _, _, fuel + 1, _, h => reads_mapFst h _
  | .i32 b, _, _, _, fuel + 1, _, h => reads_mapFst h _
  | .i64 b, _, _, _, fuel + 1, _, h => reads_mapFst h _
  | .double b, _, _, _, fuel + 1, _, h => reads_mapFst h _
  | .str b, _, _, _, fuel + 1, _, h => reads_mapFst h.1 _
  | .struct fs, s, s', bs, fuel + 1, hf, h => by
    obtain ⟨s₁, s₂, a, b, c, n, h1, h2, h3, rfl⟩ := h
    simp only [Val.size] at hf
    refine Runs.congr (a := a ++ (b ++ (c ++ []))) ?_ (by simp)
    show Runs (p.readStructBegin >>= _ : P π (Val × GoErr)) _ _ _ _
    rstep h1
    rstep (DecFields.readFields fs fuel fuel (by omega) (by omega) h2)
    rstep h3
    exact Runs.pure _ _
  | .map kt vt ps, s, s', bs, fuel + 1, hf, h => by
    obtain ⟨s₁, s₂, a, b, c, h1, h2, h3, rfl⟩ := h
    simp only [Val.size] at hf
    refine Runs.congr (a := a ++ (b ++ (c ++ []))) ?_ (by simp)
    show Runs (p.readMapBegin >>= _ : P π (Val × GoErr)) _ _ _ _
    rstep h1
    simp only [Int.toNat_natCast]
    rstep (DecPairs.readPairs kt vt ps fuel (by omega) h2)
    rstep h3
    exact Runs.pure _ _
  | .set t vs, s, s', bs, fuel + 1, hf, h => by
    obtain ⟨s₁, s₂, a, b, c, h1, h2, h3, rfl⟩ := h
    simp only [Val.size] at hf
    refine Runs.congr (a := a ++ (b ++ (c ++ []))) ?_ (by simp)
    show Runs (p.readSetBegin >>= _ : P π (Val × GoErr)) _ _ _ _
    rstep h1
    simp only [Int.toNat_natCast]
    rstep (DecVals.readVals t vs fuel (by omega) h2)
    rstep h3
    exact Runs.pure _ _
  | .list t vs, s, s', bs, fuel + 1, hf, h => by
    obtain ⟨s₁, s₂, a, b, c, h1, h2, h3, rfl⟩ := h
    simp only [Val.size] at hf
    refine Runs.congr (a := a ++ (b ++ (c ++ []))) ?_ (by simp)
    show Runs (p.readListBegin >>= _ : P π (Val × GoErr)) _ _ _ _
    rstep h1
    simp only [Int.toNat_natCast]
    rstep (DecVals.readVals t vs fuel (by omega) h2)
    rstep h3
    exact Runs.pure _ _
  | v, _, _, _, 0, hf, h => by
    have := v.size_pos
    omega
theorem DecFields.readFields : ∀ (fs : Fields) {s s' : π} {bs : Bytes} (fuel n : Nat), fs.size ≤ fuel → fs.size ≤ n →
    DecFields p fs s s' bs → Reads (Thrift.readFields p (Thrift.readVal p fuel) n) s s' bs fs
  | .nil, _, _, _, fuel, 0, hf, hn, _ => by simp [Fields.size] at hn
  | .cons id v r, _, _, _, fuel, 0, hf, hn, _ => by
    have := v.size_pos
    simp only [Fields.size] at hn; omega
  | .nil, s, s', bs, fuel, n + 1, hf, hn, h => by
    obtain ⟨id, h⟩ := h
    refine Runs.congr (a := bs ++ []) ?_ (by simp)
    show Runs (p.readFieldBegin >>= _ : P π (Fields × GoErr)) _ _ _ _
    rstep h
    exact Runs.pure _ _
  | .cons id v r, s, s', bs, fuel, n + 1, hf, hn, h => by
    obtain ⟨s₁, s₂, s₃, a, b, c, d, h1, h2, h3, h4, rfl⟩ := h
    have hp := v.size_pos
    simp only [Fields.size] at hn hf
    refine Runs.congr (a := a ++ (b ++ (c ++ (d ++ [])))) ?_ (by simp)
    show Runs (p.readFieldBegin >>= _ : P π (Fields × GoErr)) _ _ _ _
    rstep h1
    simp only [v.type_ne_stop, if_false]
    rstep (Dec.readVal v fuel (by omega) h2)
    rstep h3
    rstep (DecFields.readFields r fuel n (by omega) (by omega) h4)
    exact Runs.pure _ _
theorem DecVals.readVals : ∀ (t : Byte) (vs : Vals) {s s' : π} {bs : Bytes} (fuel : Nat), vs.size ≤ fuel →
    DecVals p t vs s s' bs → Reads (Thrift.readVals (Thrift.readVal p fuel t) vs.length) s s' bs vs
  | t, .nil, _, _, _, fuel, _, h => by
    obtain ⟨rfl, rfl⟩ := h
    exact Runs.pure _ _
  | t, .cons v r, _, _, _, fuel, hf, h => by
    obtain ⟨s₁, a, b, rfl, h1, h2, rfl⟩ := h
    simp only [Vals.size] at hf
    simp only [Vals.length, Thrift.readVals]
    rstep (Dec.readVal v fuel (by omega) h1)
    exact reads_mapFst (DecVals.readVals v.type r fuel (by omega) h2) (Vals.cons v)
theorem DecPairs.readPairs : ∀ (kt vt : Byte) (ps : Pairs) {s s' : π} {bs : Bytes} (fuel : Nat), ps.size ≤ fuel →
    DecPairs p kt vt ps s s' bs →
    Reads (Thrift.readPairs (Thrift.readVal p fuel kt) (Thrift.readVal p fuel vt) ps.length) s s' bs ps
  | kt, vt, .nil, _, _, _, fuel, _, h => by
    obtain ⟨rfl, rfl⟩ := h
    exact Runs.pure _ _
  | kt, vt, .cons k v r, _, _, _, fuel, hf, h => by
    obtain ⟨s₁, s₂, a, b, c, rfl, rfl, h1, h2, h3, rfl⟩ := h
    simp only [Pairs.size] at hf
    simp only [Pairs.length, Thrift.readPairs]
    rstep (Dec.readVal k fuel (by omega) h1)
    rstep (Dec.readVal v fuel (by omega) h2)
    exact reads_mapFst (DecPairs.readPairs k.type v.type r fuel (by omega) h3) (Pairs.cons k v)
end

/-! ## Skipping -/

/-- A `Skip` call used as a statement, its error ignored. -/
theorem runs_ignore {m : P π GoErr} {s s' : π} {bs : Bytes} {e : GoErr} (h : Runs m s s' bs e) :
    Runs (do let _ ← m; return ()) s s' bs () := by
  intro rest out; simp [h rest out]

theorem runs_snd {m : P π (α × GoErr)} {s s' : π} {bs : Bytes} {a : α} (h : Reads m s s' bs a) :
    Runs (do return (← m).2) s s' bs none := by
  intro rest out; simp [h rest out]

mutual
theorem Dec.skip (msd : Int) : ∀ (v : Val) {s s' : π} {bs : Bytes} (fuel : Nat) (d : Int), v.size ≤ fuel → Dec p v s s' bs →
    Runs (skip p msd fuel v.type d) s s' bs none
  | .bool b, _, _, _, fuel + 1, _, _, h => runs_snd h
  | .byte b, _, _, _, fuel + 1, _, _, h => runs_snd h
  | .i16 b, _, _, _, fuel + 1, _, _, h => runs_snd h
  | .i32 b, _, _, _, fuel + 1, _, _, h => runs_snd h
  | .i64 b, _, _, _, fuel + 1, _, _, h => runs_snd h
  | .double b, _, _, _, fuel + 1, _, _, h => runs_snd h
  | .str b, _, _, _, fuel + 1, _, _, h => runs_snd h.1
  | .struct fs, s, s', bs, fuel + 1, d, hf, h => by
    obtain ⟨s₁, s₂, a, b, c, n, h1, h2, h3, rfl⟩ := h
    simp only [Val.size] at hf
    show Runs (p.readStructBegin >>= _ : P π GoErr) _ _ _ _
    rstep h1
    rstep (DecFields.skipFields msd fs fuel fuel (d - 1) (by omega) (by omega) h2)
    exact h3
  | .map kt vt ps, s, s', bs, fuel + 1, d, hf, h => by
    obtain ⟨s₁, s₂, a, b, c, h1, h2, h3, rfl⟩ := h
    simp only [Val.size] at hf
    show Runs (p.readMapBegin >>= _ : P π GoErr) _ _ _ _
    rstep h1
    simp only [Int.toNat_natCast]
    rstep (DecPairs.skipPairs msd kt vt ps fuel (d - 1) (by omega) h2)
    exact h3
  | .set t vs, s, s', bs, fuel + 1, d, hf, h => by
    obtain ⟨s₁, s₂, a, b, c, h1, h2, h3, rfl⟩ := h
    simp only [Val.size] at hf
    show Runs (p.readSetBegin >>= _ : P π GoErr) _ _ _ _
    rstep h1
    simp only [Int.toNat_natCast]
    rstep (DecVals.skipVals msd t vs fuel (d - 1) (by omega) h2)
    exact h3
  | .list t vs, s, s', bs, fuel + 1, d, hf, h => by
    obtain ⟨s₁, s₂, a, b, c, h1, h2, h3, rfl⟩ := h
    simp only [Val.size] at hf
    show Runs (p.readListBegin >>= _ : P π GoErr) _ _ _ _
    rstep h1
    simp only [Int.toNat_natCast]
    rstep (DecVals.skipVals msd t vs fuel (d - 1) (by omega) h2)
    exact h3
  | v, _, _, _, 0, _, hf, h => by
    have := v.size_pos
    omega
theorem DecFields.skipFields (msd : Int) : ∀ (fs : Fields) {s s' : π} {bs : Bytes} (fuel n : Nat) (d : Int),
    fs.size ≤ fuel → fs.size ≤ n → DecFields p fs s s' bs →
    Runs (Thrift.skipFields p (fun t => Thrift.skip p msd fuel t d) n) s s' bs ()
  | .nil, _, _, _, fuel, 0, _, hf, hn, _ => by simp [Fields.size] at hn
  | .cons id v r, _, _, _, fuel, 0, _, hf, hn, _ => by
    have := v.size_pos
    simp only [Fields.size] at hn; omega
  | .nil, s, s', bs, fuel, n + 1, d, hf, hn, h => by
    obtain ⟨id, h⟩ := h
    refine Runs.congr (a := bs ++ []) ?_ (by simp)
    show Runs (p.readFieldBegin >>= _ : P π Unit) _ _ _ _
    rstep h
    exact Runs.pure _ _
  | .cons id v r, s, s', bs, fuel, n + 1, d, hf, hn, h => by
    obtain ⟨s₁, s₂, s₃, a, b, c, e, h1, h2, h3, h4, rfl⟩ := h
    have hp := v.size_pos
    simp only [Fields.size] at hn hf
    show Runs (p.readFieldBegin >>= _ : P π Unit) _ _ _ _
    rstep h1
    simp only [v.type_ne_stop, if_false]
    rstep (Dec.skip msd v fuel d (by omega) h2)
    rstep h3
    exact DecFields.skipFields msd r fuel n d (by omega) (by omega) h4
theorem DecVals.skipVals (msd : Int) : ∀ (t : Byte) (vs : Vals) {s s' : π} {bs : Bytes} (fuel : Nat) (d : Int),
    vs.size ≤ fuel → DecVals p t vs s s' bs →
    Runs (repeatN vs.length (do let _ ← Thrift.skip p msd fuel t d; return ())) s s' bs ()
  | t, .nil, _, _, _, fuel, _, _, h => by
    obtain ⟨rfl, rfl⟩ := h
    exact Runs.pure _ _
  | t, .cons v r, _, _, _, fuel, d, hf, h => by
    obtain ⟨s₁, a, b, rfl, h1, h2, rfl⟩ := h
    simp only [Vals.size] at hf
    simp only [Vals.length, repeatN]
    rstep (runs_ignore (Dec.skip msd v fuel d (by omega) h1))
    exact DecVals.skipVals msd v.type r fuel d (by omega) h2
theorem DecPairs.skipPairs (msd : Int) : ∀ (kt vt : Byte) (ps : Pairs) {s s' : π} {bs : Bytes} (fuel : Nat) (d : Int),
    ps.size ≤ fuel → DecPairs p kt vt ps s s' bs →
    Runs (repeatN ps.length (do
        let _ ← Thrift.skip p msd fuel kt d
        let _ ← Thrift.skip p msd fuel vt msd
        return ())) s s' bs ()
  | kt, vt, .nil, _, _, _, fuel, _, _, h => by
    obtain ⟨rfl, rfl⟩ := h
    exact Runs.pure _ _
  | kt, vt, .cons k v r, _, _, _, fuel, d, hf, h => by
    obtain ⟨s₁, s₂, a, b, c, rfl, rfl, h1, h2, h3, rfl⟩ := h
    simp only [Pairs.size] at hf
    simp only [Pairs.length, repeatN]
    refine Runs.congr (a := (a ++ b) ++ c) ?_ (by simp)
    rstep (Runs.bind (Dec.skip msd k fuel d (by omega) h1) (runs_ignore (Dec.skip msd v fuel msd (by omega) h2)))
    exact DecPairs.skipPairs msd k.type v.type r fuel d (by omega) h3
end

end Thrift
