import Verif.Spec.Frames
import Verif.Spec.Reader
import Verif.Lemmas.Bits
import Verif.Lemmas.Memory
/-!
# Framed transport and `ReadAll` lemmas
-/

namespace Thrift

/-! ## ReadAll over an arbitrary legal reader -/

theorem arrived_loop {T : Transport σ} {n : Nat} {s : σ} {bs : Bytes} {e : GoErr} {s' : σ}
    (h : Arrived T n s bs e s') (hl : LegalReader T) : bs.length ≤ n ∧
    ∃ f, n ≤ bs.length + f ∧ T.readAll n s = readAllLoop T.read n f bs e s' := by
  induction h with
  | start => exact ⟨by simp, n, by simp, rfl⟩
  | @more bs e s' c e' s'' _ hlt hr hc ih =>
    obtain ⟨_, f, hf, heq⟩ := ih
    obtain ⟨c2, e2, s2, hr2, hc2⟩ := hl (n - bs.length) s'
    rw [hr] at hr2
    simp only [Prod.mk.injEq, Res.ok.injEq] at hr2
    obtain ⟨⟨rfl, rfl⟩, rfl⟩ := hr2
    have hc0 : c.length ≠ 0 := by simpa using hc
    refine ⟨by rw [List.length_append]; omega, ?_⟩
    match f, hf, heq with
    | 0, hf, _ => omega
    | f + 1, hf, heq =>
      refine ⟨f, by rw [List.length_append]; omega, ?_⟩
      rw [heq]
      simp only [readAllLoop, if_pos hlt, hr, if_neg hc0]

/-- What `ReadAll` returns over any legal reader. -/
theorem readAll_cases {T : Transport σ} (hl : LegalReader T) (n : Nat) (s : σ) :
    (∃ bs e s', Arrived T n s bs e s' ∧ bs.length = n ∧ T.readAll n s = (.ok ⟨bs, n, e⟩, s')) ∨
    (∃ bs e s' e' s'', Arrived T n s bs e s' ∧ bs.length < n ∧ T.read (n - bs.length) s' = (.ok ([], e'), s'') ∧
      T.readAll n s = (.ok ⟨fillBuf n bs, 0, if e'.isSome then some readAllErr else none⟩, s'')) := by
  suffices ∀ k bs e s', Arrived T n s bs e s' → n ≤ bs.length + k →
    ((∃ bs e s', Arrived T n s bs e s' ∧ bs.length = n ∧ T.readAll n s = (.ok ⟨bs, n, e⟩, s')) ∨
    (∃ bs e s' e' s'', Arrived T n s bs e s' ∧ bs.length < n ∧ T.read (n - bs.length) s' = (.ok ([], e'), s'') ∧
      T.readAll n s = (.ok ⟨fillBuf n bs, 0, if e'.isSome then some readAllErr else none⟩, s'')))
    from this n [] none s .start (by simp)
  intro k
  induction k with
  | zero =>
    intro bs e s' ha hk
    obtain ⟨hle, f, hf, heq⟩ := arrived_loop ha hl
    have hn : bs.length = n := by omega
    subst hn
    refine .inl ⟨bs, e, s', ha, rfl, ?_⟩
    rw [heq]
    cases f <;> simp [readAllLoop, fillBuf_self]
  | succ k ih =>
    intro bs e s' ha hk
    obtain ⟨hle, f, hf, heq⟩ := arrived_loop ha hl
    by_cases hlt : bs.length < n
    · obtain ⟨c, e', s'', hr, hc⟩ := hl (n - bs.length) s'
      by_cases h0 : c = []
      · subst h0
        refine .inr ⟨bs, e, s', e', s'', ha, hlt, hr, ?_⟩
        rw [heq]
        match f, hf with
        | 0, hf => omega
        | f + 1, _ => simp [readAllLoop, hlt, hr]
      · have h0' : c.length ≠ 0 := by simpa using h0
        exact ih _ _ _ (.more ha hlt hr h0) (by rw [List.length_append]; omega)
    · have hn : bs.length = n := by omega
      subst hn
      refine .inl ⟨bs, e, s', ha, rfl, ?_⟩
      rw [heq]
      cases f <;> simp [readAllLoop, fillBuf_self]

/-- All `n` bytes arrived: `ReadAll` returns them with the error of the last
`Read`. -/
theorem readAll_complete {T : Transport σ} (hl : LegalReader T) {n : Nat} {s : σ} {bs : Bytes} {e : GoErr} {s' : σ}
    (h : Arrived T n s bs e s') (hn : bs.length = n) : T.readAll n s = (.ok ⟨bs, n, e⟩, s') := by
  obtain ⟨_, f, _, heq⟩ := arrived_loop h hl
  subst hn
  rw [heq]
  cases f <;> simp [readAllLoop, fillBuf_self]

/-! ## Chunks -/

theorem chunked_reader : FaithfulReaderOn chunked NonEmptyChunks List.flatten (fun _ => []) where
  read_some n s hI hn hv := by
    match s, hI, hv with
    | c :: r, hI, _ =>
      have hc : c ≠ [] := hI c (by simp)
      have hr : NonEmptyChunks r := fun x hx => hI x (by simp [hx])
      have hc0 : c.length ≠ 0 := by simpa using hc
      by_cases hl : c.length ≤ n
      · refine ⟨c.length, r, by omega, hl, by simp, ?_, by simp, rfl, hr⟩
        simp [chunked, hl]
      · refine ⟨n, c.drop n :: r, hn, by omega, by simp; omega, ?_, ?_, rfl, ?_⟩
        · simp only [chunked, hl, if_false, List.flatten_cons]
          rw [List.take_append_of_le_length (by omega)]
        · simp only [List.flatten_cons]
          rw [List.drop_append_of_le_length (by omega)]
        · intro x hx
          rcases List.mem_cons.1 hx with h | h
          · subst h
            intro h0
            have := congrArg List.length h0
            simp at this; omega
          · exact hr x h
  read_end n s hI hn hv := by
    match s, hI, hv with
    | [], _, _ =>
      refine ⟨endOfStream, [], ?_, rfl, rfl, fun _ h => absurd h (by simp)⟩
      have : n ≠ 0 := by omega
      simp [chunked, this]
    | c :: r, hI, hv =>
      have := hI c (by simp)
      simp at hv
      exact absurd hv.1 this

/-! ## Frames -/

theorem ofBE_be (n : Nat) (h : n < 2 ^ 32) : ofBE (be 4 n) = n := by
  simp only [be_four, ofBE, List.foldl_cons, List.foldl_nil, BitVec.toNat_ofNat]
  omega

@[simp] theorem frame_length (p : Bytes) : (frame p).length = 4 + p.length := by simp [frame]

theorem take4_frame (p rest : Bytes) : (frame p ++ rest).take 4 = be 4 p.length := by
  rw [frame, List.append_assoc, List.take_append_of_le_length (by simp), List.take_of_length_le (by simp)]

theorem drop4_frame (p rest : Bytes) : (frame p ++ rest).drop 4 = p ++ rest := by
  rw [frame, List.append_assoc, List.drop_append]
  simp [be_length]

theorem peerFramesAux_frame (p rest : Bytes) (hp : Fits p) (f : Nat) :
    peerFramesAux (f + 1) (frame p ++ rest) = p :: peerFramesAux f rest := by
  rw [peerFramesAux, take4_frame, ofBE_be _ hp, drop4_frame]
  rw [if_pos (by simp)]
  congr 1
  · simp
  · congr 1
    rw [← List.drop_drop, drop4_frame]
    simp

theorem peerFramesAux_frames : ∀ (ps : List Bytes) (_ : ∀ p ∈ ps, Fits p) (f : Nat), (frames ps).length ≤ f →
    peerFramesAux f (frames ps) = ps
  | [], _, f, _ => by
    cases f <;> simp [peerFramesAux, frames]
  | p :: ps, h, f, hf => by
    simp only [frames, List.map_cons, List.flatten_cons, List.length_append, frame_length] at hf
    match f, hf with
    | 0, hf => omega
    | f + 1, hf =>
      show peerFramesAux (f + 1) (frame p ++ frames ps) = _
      rw [peerFramesAux_frame p _ (h p (by simp)), peerFramesAux_frames ps (fun q hq => h q (by simp [hq])) f]
      simp only [frames]; omega

theorem peerFrames_frames (ps : List Bytes) (h : ∀ p ∈ ps, Fits p) : peerFrames (frames ps) = ps :=
  peerFramesAux_frames ps h _ (Nat.le_refl _)

/-- A strict prefix of a frame holds no complete frame. -/
theorem peerFrames_cut (p : Bytes) (hp : Fits p) (k : Nat) (hk : k < (frame p).length) :
    peerFrames ((frame p).take k) = [] := by
  have aux : ∀ f, peerFramesAux f ((frame p).take k) = [] := by
    intro f
    cases f with
    | zero => rfl
    | succ f =>
      rw [peerFramesAux, if_neg]
      have hlen : ((frame p).take k).length = k := by rw [List.length_take]; omega
      rw [hlen]
      by_cases h4 : k < 4
      · omega
      · have h := take4_frame p []
        rw [List.append_nil] at h
        rw [List.take_take, Nat.min_eq_left (by omega), h, ofBE_be _ hp]
        rw [frame_length] at hk; omega
  exact aux _

theorem transportFromOsError_none : transportFromOsError none = none := rfl

section
variable {T : Transport σ} {I : σ → Prop} {view sent : σ → Bytes}

/-- `readFrame` over any faithful reader returns and leaves the write side alone. -/
theorem readFrame_total (F : FaithfulReaderOn T I view sent) (f : Framed) (t : σ) (hI : I t) :
    ∃ r rb t', framedReadFrame.run T f t = (.ok (r, { f with readBuffer := rb }), t') ∧ sent t' = sent t ∧ I t' := by
  obtain ⟨t1, h1, h2, h3, h4⟩ := F.readAll 4 t hI
  by_cases hc : 4 ≤ (view t).length
  · rw [if_pos hc] at h4
    by_cases h0 : (uint32BE ((view t).take 4)).toNat = 0
    · exact ⟨(0, none), f.readBuffer, t1, by
        simp [framedReadFrame, P.run_readAll, h4, h0], h2, h3⟩
    · obtain ⟨t2, g1, g2, g3, g4⟩ := F.readAll (uint32BE ((view t).take 4)).toNat t1 h3
      by_cases hd : (uint32BE ((view t).take 4)).toNat ≤ (view t1).length
      · rw [if_pos hd] at g4
        exact ⟨_, _, t2, by
          simp [framedReadFrame, P.run_readAll, h4, h0, g4]; exact ⟨rfl, rfl⟩, by rw [g2, h2], g3⟩
      · rw [if_neg hd] at g4
        exact ⟨(0, some readAllErr), f.readBuffer, t2, by
          simp [framedReadFrame, P.run_readAll, h4, h0, g4], by rw [g2, h2], g3⟩
  · rw [if_neg hc] at h4
    exact ⟨(0, some readAllErr), f.readBuffer, t1, by
      simp [framedReadFrame, P.run_readAll, h4], h2, h3⟩

theorem readFrame_frame (F : FaithfulReaderOn T I view sent) (f : Framed) (t : σ) (hI : I t) (p w : Bytes)
    (hp : p ≠ []) (hfit : Fits p) (hv : view t = frame p ++ w) :
    ∃ t', framedReadFrame.run T f t = (.ok ((p.length, none), { f with readBuffer := p }), t') ∧
      view t' = w ∧ sent t' = sent t ∧ I t' := by
  obtain ⟨t1, h1, h2, h3, h4⟩ := F.readAll 4 t hI
  rw [hv] at h1 h4
  rw [drop4_frame] at h1
  rw [if_pos (by simp; omega), take4_frame] at h4
  have hsize : (uint32BE (be 4 p.length)).toNat = p.length := by
    have h := uint32BE_be_nat p.length hfit []
    rw [List.append_nil] at h
    rw [h, BitVec.toNat_ofNat, Nat.mod_eq_of_lt hfit]
  have h0 : p.length ≠ 0 := by simpa using hp
  obtain ⟨t2, g1, g2, g3, g4⟩ := F.readAll p.length t1 h3
  rw [h1, if_pos (by simp)] at g4
  rw [h1] at g1
  refine ⟨t2, ?_, by rw [g1]; simp, by rw [g2, h2], g3⟩
  simp [framedReadFrame, P.run_readAll, h4, hsize, h0, g4, hp]

theorem readFrame_empty (F : FaithfulReaderOn T I view sent) (f : Framed) (t : σ) (hI : I t) (w : Bytes)
    (hv : view t = frame [] ++ w) :
    ∃ t', framedReadFrame.run T f t = (.ok ((0, none), f), t') ∧ view t' = w ∧ sent t' = sent t ∧ I t' := by
  obtain ⟨t1, h1, h2, h3, h4⟩ := F.readAll 4 t hI
  rw [hv] at h1 h4
  rw [drop4_frame] at h1
  rw [if_pos (by simp), take4_frame] at h4
  have hsize : (uint32BE (be 4 ([] : Bytes).length)).toNat = 0 := by decide
  exact ⟨t1, by simp only [framedReadFrame, P.run_bind, P.run_readAll, h4, andThen_ok, hsize, if_true]; rfl, by simpa using h1, h2, h3⟩

theorem readFrame_end (F : FaithfulReaderOn T I view sent) (f : Framed) (t : σ) (hI : I t) (hv : view t = []) :
    ∃ t', framedReadFrame.run T f t = (.ok ((0, some readAllErr), f), t') ∧ view t' = [] ∧ sent t' = sent t ∧ I t' := by
  obtain ⟨t1, h1, h2, h3, h4⟩ := F.readAll 4 t hI
  rw [hv] at h1 h4
  rw [if_neg (by simp)] at h4
  exact ⟨t1, by simp [framedReadFrame, P.run_readAll, h4], by simpa using h1, h2, h3⟩

/-- `bufferRead` of a positive size from a non-empty buffer. -/
theorem bufferRead_some (n : Nat) (b : Bytes) (hb : b ≠ []) : bufferRead n b = ((b.take n, none), b.drop n) := by
  simp [bufferRead, hb]

theorem run_framedBufferRead (n : Nat) (f : Framed) (t : σ) : (framedBufferRead n).run T f t =
    (.ok ((bufferRead n f.readBuffer).1, { f with readBuffer := (bufferRead n f.readBuffer).2 }), t) := rfl

/-- Read with data in the buffer. -/
theorem framedRead_buffered (n : Nat) (hn : 0 < n) (f : Framed) (hf : f.readBuffer ≠ []) (t : σ) :
    (framedRead n).run T f t =
      (.ok ((f.readBuffer.take n, none), { f with readBuffer := f.readBuffer.drop n }), t) := by
  have h0 : 0 < f.readBuffer.length := List.length_pos_iff.2 hf
  have h1 : 0 < (f.readBuffer.take n).length := by rw [List.length_take]; omega
  simp only [framedRead, P.run_bind, P.run_get, andThen_ok]
  rw [if_pos h0]
  simp only [P.run_bind, run_framedBufferRead, bufferRead_some n _ hf, andThen_ok]
  rw [if_pos h1]
  simp [transportFromOsError_none]

/-- Read with an empty buffer: whatever `readFrame` does, then the buffer. -/
theorem framedRead_empty (n : Nat) (f f' : Framed) (hf : f.readBuffer = []) (t t' : σ) (r : Nat × GoErr)
    (h : framedReadFrame.run T f t = (.ok (r, f'), t')) :
    (framedRead n).run T f t = (.ok (((bufferRead n f'.readBuffer).1.1, transportFromOsError (bufferRead n f'.readBuffer).1.2),
      { f' with readBuffer := (bufferRead n f'.readBuffer).2 }), t') := by
  simp only [framedRead, P.run_bind, P.run_get, andThen_ok, hf, List.length_nil]
  rw [if_neg (by simp)]
  simp [h, run_framedBufferRead]

end

end Thrift
