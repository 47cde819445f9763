import Verif.Spec.Pieces
import Verif.Lemmas.Store
import Verif.Props.Assemble
import Verif.Props.File

/-! # Property C108: measuring with a `FileNull`, then writing into a buffer of that size -/

namespace Lcms.Props

open Lcms.Spec

/-- The `write` calls of a piece. -/
def pieceChunks (t : Target) : Piece → List (List Byte)
  | .val v => chunks t v
  | .raw b => [b]

theorem save_chunks {σ : Type} (t : Target) (h : Handler σ) (ps : List Piece) :
    save t h ps = writeChunks h (ps.flatMap (pieceChunks t)) := by
  induction ps with
  | nil => rfl
  | cons p ps ih =>
    rw [save, List.flatMap_cons, writeChunks_append, ih]
    congr 1
    cases p with
    | val v => exact put_chunks t h v
    | raw b => exact (M.bind_pure _).symm

theorem means_all (t : Target) (ps : List Piece) (bss : List (List Byte)) (h : List.Forall₂ (Piece.Means t) ps bss) :
    (ps.flatMap (pieceChunks t)).flatten = bss.flatten := by
  induction h with
  | nil => rfl
  | @cons p b ps bs hp _ ih =>
    rw [List.flatMap_cons, List.flatten_append, ih, List.flatten_cons]
    congr 1
    cases p with
    | val v => exact ((encodes_iff t v b).mp hp).symm
    | raw c => simpa [pieceChunks, Piece.Means] using hp.symm

theorem null_chunks (t : Target) (bs : List (List Byte)) (n : Nat) (hn : n + bs.flatten.length < t.usizeMod) :
    writeChunks (Null.handler t) bs ⟨n, n⟩ = .ok () ⟨n + bs.flatten.length, n + bs.flatten.length⟩ := by
  induction bs generalizing n with
  | nil => rfl
  | cons b bs ih =>
    rw [List.flatten_cons, List.length_append] at hn ⊢
    have hw : (Null.handler t).write b ⟨n, n⟩ = .ok () ⟨n + b.length, n + b.length⟩ := by
      show Null.write t b ⟨n, n⟩ = _
      unfold Null.write Target.addUsize
      simp only
      rw [if_pos (by omega)]
      simp only [Out.ok.injEq, Null.mk.injEq, true_and]
      split <;> omega
    rw [writeChunks, M.bind_apply, hw]
    simp only
    rw [ih (n + b.length) (by omega), Nat.add_assoc]

theorem fixed_chunks (t : Target) (bs : List (List Byte)) (d r : List Byte) :
    writeChunks (Mem.fixed t) bs ⟨d ++ r, d.length⟩ =
      if bs.flatten.length ≤ r.length then
        .ok () ⟨d ++ (bs.flatten ++ r.drop bs.flatten.length), d.length + bs.flatten.length⟩
      else .err .writeZero ⟨d ++ bs.flatten.take r.length, d.length + r.length⟩ := by
  induction bs generalizing d r with
  | nil => simp [writeChunks]; rfl
  | cons b bs ih =>
    have hw : (Mem.fixed t).write b ⟨d ++ r, d.length⟩ =
        if b.length ≤ r.length then .ok () ⟨(d ++ b) ++ r.drop b.length, (d ++ b).length⟩
        else .err .writeZero ⟨d ++ b.take r.length, d.length + r.length⟩ := by
      show Mem.writeAll Mem.sliceWrite b _ = _
      rw [Mem.writeAll_fixed]
      have hf : Mem.fits b ⟨d ++ r, d.length⟩ = min b.length r.length := by
        unfold Mem.fits; simp only [List.length_append]; omega
      have hp : ∀ c : List Byte, patch (d ++ r) d.length c = d ++ (c ++ r.drop c.length) := by
        intro c
        unfold patch
        rw [List.take_left', List.length_append, show d.length - (d.length + r.length) = 0 by omega, List.drop_append]
        · simp [zeros]
        · rfl
      by_cases hb : b = []
      · subst hb; simp
      have hl := List.length_pos_iff.mpr hb
      rw [if_neg hb, hf]
      by_cases hr : b.length ≤ r.length
      · rw [if_neg (by omega), if_pos (by omega), if_pos hr, hp]
        simp [List.append_assoc]
      · rw [if_neg hr]
        by_cases h0 : r.length = 0
        · rw [if_pos (by omega)]
          have : r = [] := List.length_eq_zero_iff.mp h0
          subst this; simp
        · rw [if_neg (by omega), if_neg (by omega), hp, show min b.length r.length = r.length by omega]
          congr 2
          rw [List.drop_eq_nil_of_le (by simp; omega), List.append_nil]
    rw [writeChunks, M.bind_apply, hw, List.flatten_cons]
    by_cases hr : b.length ≤ r.length
    · rw [if_pos hr]
      simp only
      rw [ih (d ++ b) (r.drop b.length)]
      simp only [List.length_append, List.length_drop]
      by_cases h2 : bs.flatten.length ≤ r.length - b.length
      · rw [if_pos h2, if_pos (by omega)]
        simp only [List.append_assoc, List.drop_drop, Nat.add_assoc]
      · rw [if_neg h2, if_neg (by omega), List.take_append, List.take_of_length_le hr]
        congr 2
        · rw [List.append_assoc]
        · omega
    · rw [if_neg hr]
      simp only [List.length_append]
      rw [if_neg (by omega), List.take_append_of_le_length (by omega)]

theorem isizeMax_lt (t : Target) : t.isizeMax < t.usizeMod := by
  unfold Target.isizeMax Target.usizeMod Target.usizeBits
  split <;> decide

/-- **C108** Saving in two passes.  The first pass, on a new `FileNull`, succeeds and reports the number of bytes
the pieces have in a file.  A buffer takes the second pass exactly if it has that size or more: then the bytes of
the pieces are at its beginning and the rest is untouched; a smaller buffer is filled with as many of them as it
holds and the error is `WriteZero`. -/
theorem C108_two_passes (t : Target) (ps : List Piece) (bss : List (List Byte))
    (hm : List.Forall₂ (Piece.Means t) ps bss) (hfit : bss.flatten.length ≤ t.isizeMax) :
    let n := bss.flatten.length
    ∃ s, save t (Null.handler t) ps Null.new = .ok () s ∧ reportedSize (Null.handler t) s = .ok n s ∧
      ∀ buf : List Byte, save t (Mem.fixed t) ps (Mem.new buf) =
        if n ≤ buf.length then .ok () ⟨bss.flatten ++ buf.drop n, n⟩
        else .err .writeZero ⟨bss.flatten.take buf.length, buf.length⟩ := by
  intro n
  have hlt := isizeMax_lt t
  refine ⟨⟨n, n⟩, ?_, ?_, fun buf => ?_⟩
  · rw [save_chunks, Null.new, null_chunks t _ 0 (by rw [means_all t ps bss hm]; omega), means_all t ps bss hm]
    simp [n]
  · exact (C12_reported_size t).2.2 ⟨n, n⟩ (by show n < _; omega) (by show n < _; omega)
  · have h := fixed_chunks t (ps.flatMap (pieceChunks t)) [] buf
    rw [means_all t ps bss hm] at h
    rw [save_chunks]
    simpa only [Mem.new, List.nil_append, List.length_nil, Nat.zero_add] using h

/-- Every list of pieces has file bytes, so the theorem applies to all of them. -/
theorem C108_applies (t : Target) (ps : List Piece) : ∃ bss, List.Forall₂ (Piece.Means t) ps bss := by
  induction ps with
  | nil => exact ⟨[], .nil⟩
  | cons p ps ih =>
    obtain ⟨bss, h⟩ := ih
    cases p with
    | val v => exact ⟨bytesOf t v :: bss, .cons ((encodes_iff t v _).mpr rfl) h⟩
    | raw b => exact ⟨b :: bss, .cons rfl h⟩

/-- **C108** for profiles: measure, enter the size in the header, save into a buffer of that size.  The buffer is
filled completely, and a file with its bytes opens with the header's fields and all tags that end within it. -/
theorem C108_profile (t t' : Target) (env : Handlers) (now : NaiveDateTime) (sched : List OsResp) (ctx : CState)
    (fs : FS) (path : Path) (hd : ICCHeader) (es : List TagEntry) (data buf : List Byte)
    (hr : fs.mayRead path = none) (hfeat : t.leFeature = t'.leFeature)
    (hm : hd.magic.val = 0x61637370) (hdt : ICCHeader.Dated hd) (hn : es.length ≤ 100)
    (hlen : 132 + 12 * es.length + data.length ≤ min t.isizeMax t'.isizeMax)
    (h32 : 132 + 12 * es.length + data.length < 2 ^ 32)
    (hin : ∀ e ∈ es, e.offset.toNat + e.size.toNat ≤ 132 + 12 * es.length + data.length) :
    ∃ n s, saveProfile t (Null.handler t) hd es data Null.new = .ok () s ∧
      reportedSize (Null.handler t) s = .ok n s ∧
      (buf.length = n → ∃ b, saveProfile t (Mem.fixed t) { hd with size := UInt32.ofNat n } es data (Mem.new buf) =
          .ok () ⟨b, n⟩ ∧ b.length = n ∧
        ∃ p, openFromFileThr t' env now sched ctx (fs.put path b) path .read = (.ok p, ctx, fs.put path b) ∧
          Keeps hd p ∧ tags p = es.map asListed) := by
  have hlt := isizeMax_lt t
  have hlt' := isizeMax_lt t'
  have hmax : t'.isizeMax ≤ 9223372036854775807 := by
    unfold Target.isizeMax Target.usizeBits
    split <;> decide
  have hl := layout_length t hd es data
  refine ⟨132 + 12 * es.length + data.length, ⟨132 + 12 * es.length + data.length, 132 + 12 * es.length + data.length⟩,
    ?_, ?_, fun hbuf => ?_⟩
  · rw [saveProfile_chunks, Null.new, null_chunks t _ 0 (by rw [chunks_layout, hl]; omega), chunks_layout, hl]
    simp
  · exact (C12_reported_size t).2.2 ⟨_, _⟩ (by show 132 + _ + _ < _; omega) (by show 132 + _ + _ < _; omega)
  · generalize hN : 132 + 12 * es.length + data.length = n at *
    set hd' : ICCHeader := { hd with size := UInt32.ofNat n } with hhd'
    have hl' := layout_length t hd' es data
    refine ⟨layout t hd' es data, ?_, by omega, ?_⟩
    · have h := fixed_chunks t (ICCHeader.toBytes t 8 hd' :: fileBytes t 4 (UInt32.ofNat es.length).toNat ::
        (es.map (TagEntry.toBytes t) ++ [data])) [] buf
      rw [chunks_layout, if_pos (by omega), List.drop_eq_nil_of_le (by omega)] at h
      rw [saveProfile_chunks, Mem.new]
      simpa [hl', hN] using h
    · have hlay : layout t hd' es data = layout t' hd' es data := by
        have hb : ∀ n x, fileBytes t n x = fileBytes t' n x := fun n x => by unfold fileBytes; rw [hfeat]
        have he : TagEntry.toBytes t = TagEntry.toBytes t' := by
          funext e; simp only [tagToBytes_eq, hb]
        unfold layout
        rw [toBytes_eq t 8 (Or.inr rfl), toBytes_eq t' 8 (Or.inr rfl), he]
        simp only [hb]
      rw [hlay] at hl' ⊢
      have hv := layout_verdict t' hd' es data hm hdt hn (fun _ e he => by have := hin e he; omega)
      have hh := layout_header t' hd' es data
      have hk := layout_kept t' hd' es data (by omega) (by omega)
      generalize layout t' hd' es data = b at *
      have hop := openRead_eq t' env now sched ctx (fs.put path b) path b (by omega) hr (by simp [FS.put])
      unfold outcome at hop
      rw [hv] at hop
      obtain ⟨⟨d, f, h1, -, -, -, h2⟩, h3⟩ := hop
      refine ⟨goodProfile t' b now d f, ?_, ?_, ?_⟩
      · rw [← h2, ← h3]
      · rw [hh] at h1
        have k := keeps_good t' b now d f hd' hh h1 hdt
        exact ⟨k.1, k.2, k.3, k.4, k.5, k.6, k.7, k.8, k.9, k.10, k.11, k.12, k.13, k.14, k.15, k.16, k.17, k.18⟩
      · have hs : hd'.size.toNat = n := by
          rw [hhd']; exact UInt32.toNat_ofNat_of_lt' h32
        rw [tags_good t' b now d f hv, hk, List.map_map, hs, hN, List.filter_eq_self.mpr]
        · apply List.map_congr_left
          intro e _
          simp only [Function.comp_apply, entryOf, asListed, sigOf_sig]
        · intro e he
          have := hin e he
          simp; omega

/-- Five bytes of values and three raw ones: measured as 8; a buffer of 10 keeps its last two bytes, a buffer of 6
is filled and the error is `WriteZero`. -/
example :
    let ps : List Piece := [.val (.u8 7), .raw [9, 9], .raw [], .val (.u32 0x01020304), .raw [5]]
    save pc (Null.handler pc) ps Null.new = .ok () ⟨8, 8⟩ ∧
    save pc (Mem.fixed pc) ps (Mem.new (List.replicate 10 0xFF)) = .ok () ⟨[7, 9, 9, 1, 2, 3, 4, 5, 0xFF, 0xFF], 8⟩ ∧
    save pc (Mem.fixed pc) ps (Mem.new (List.replicate 6 0xFF)) = .err .writeZero ⟨[7, 9, 9, 1, 2, 3], 6⟩ := by
  decide +kernel

/-- The two-tag profile of C83, this time with both tags inside. -/
example :
    let es : List TagEntry := [⟨⟨0x64657363⟩, 168, 4⟩, ⟨⟨0x77747074⟩, 172, 8⟩]
    saveProfile pc (Null.handler pc) { smallHeader with size := 0 } es (zeros 24) Null.new = .ok () ⟨180, 180⟩ ∧
    (∀ e ∈ es, e.offset.toNat + e.size.toNat ≤ 132 + 12 * es.length + (zeros 24).length) := by
  decide +kernel

end Lcms.Props
