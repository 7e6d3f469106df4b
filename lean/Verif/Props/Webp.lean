import Verif.Lemmas.Webp
/-
C90: converting the images of a table file to WebP.
-/
namespace Vpin
variable {E : Env} {P : PictureLib}

/-! ### What is written -/

/-- the path of an image in a table file -/
abbrev imageStream (i : Nat) : Path := itemPath "Image".toList i

/-- images with numbers in a range are written, in any order, and nothing else -/
inductive ImageWrites (E : Env) (lo hi : Nat) : Cfb → Cfb → Prop
  | refl (c : Cfb) : ImageWrites E lo hi c c
  | step {a b c : Cfb} (k : Nat) (bs : Bytes) : lo ≤ k → k < hi → a.createStream E.toCfbLib (imageStream k) bs = .ok b →
      ImageWrites E lo hi b c → ImageWrites E lo hi a c

theorem ImageWrites.widen {lo hi lo' hi' : Nat} {a b : Cfb} (h : ImageWrites E lo hi a b) (h1 : lo' ≤ lo) (h2 : hi ≤ hi') :
    ImageWrites E lo' hi' a b := by
  induction h with
  | refl c => exact .refl c
  | step k bs l1 l2 hs _ ih => exact .step k bs (by omega) (by omega) hs ih

theorem ImageWrites.get {lo hi : Nat} {a b : Cfb} (h : ImageWrites E lo hi a b) {q : Path}
    (hq : ∀ k, lo ≤ k → k < hi → E.key q ≠ E.key (imageStream k)) : b.get E.toCfbLib q = a.get E.toCfbLib q := by
  induction h with
  | refl c => rfl
  | step k bs l1 l2 hs _ ih => rw [ih, Cfb.get_createStream hs, if_neg (hq k l1 l2)]

theorem ImageWrites.children {lo hi : Nat} {a b : Cfb} (h : ImageWrites E lo hi a b) :
    b.readStorage E.toCfbLib [infoStg] = a.readStorage E.toCfbLib [infoStg] := by
  induction h with
  | refl c => rfl
  | step k bs l1 l2 hs _ ih => rw [ih, createStream_children hs]

theorem kind_image (k : Nat) : E.kind (imageStream k) = gkind "Image".toList := kind_item (by decide) k

theorem ImageWrites.get_kind {lo hi : Nat} {a b : Cfb} (h : ImageWrites E lo hi a b) {q : Path}
    (hq : E.kind q ≠ gkind "Image".toList) : b.get E.toCfbLib q = a.get E.toCfbLib q :=
  h.get fun k _ _ => key_ne_of_kind (by rw [kind_image]; exact hq)

theorem ImageWrites.openStream {lo hi : Nat} {a b : Cfb} (h : ImageWrites E lo hi a b) {q : Path}
    (hq : E.kind q ≠ gkind "Image".toList) : b.openStream E.toCfbLib q = a.openStream E.toCfbLib q := by
  unfold Cfb.openStream; rw [h.get_kind hq]

theorem ImageWrites.mac {lo hi : Nat} {a b : Cfb} (h : ImageWrites E lo hi a b)
    (ht : ∀ t ∈ tagNames E.toCfbLib a, TagName t) : generateMac E b = generateMac E a := by
  induction h with
  | refl c => rfl
  | @step a b c k bs l1 l2 hs _ ih =>
    have htags : tagNames E.toCfbLib b = tagNames E.toCfbLib a := tagNames_congr (by
      rw [Cfb.get_createStream hs, if_neg (key_ne_of_kind (by rw [kind_image, kind_game (by decide)]; decide))])
    rw [ih (by rw [htags]; exact ht)]
    exact C27_uncovered_writes E a b _ bs ht (.inl ⟨k, .inr (.inl rfl)⟩) hs

theorem webpFrom_writes (n : Nat) : ∀ i c, ImageWrites E i (i + n) c (webpFrom E P i n c).2 := by
  induction n with
  | zero => intro i c; exact .refl c
  | succ n ih =>
    intro i c
    unfold webpFrom
    split
    · exact .refl c
    · split
      · exact .refl c
      · next new report _ =>
        cases new with
        | none => exact (ih (i + 1) c).widen (by omega) (by omega)
        | some im =>
          dsimp only [replaceImage]
          cases hw : overwriteImage E i im c with
          | error e => exact .refl c
          | ok c1 =>
            unfold overwriteImage at hw
            obtain ⟨data, -, hw⟩ := Res.unbind hw
            exact .step i data (by omega) (by omega) hw ((ih (i + 1) c1).widen (by omega) (by omega))

theorem imagesToWebp_writes (c : Cfb) : ∃ n, ImageWrites E 0 n c (imagesToWebp E P c).2 := by
  unfold imagesToWebp
  split
  · exact ⟨0, .refl c⟩
  · next g _ => exact ⟨_, (webpFrom_writes g.images_size.toNat 0 c).widen (by omega) (Nat.le_refl _)⟩

/-- **C90.** Whatever the file holds, and whether or not the call succeeds: nothing in the file changes but images. -/
theorem C90_other_streams (E : Env) (P : PictureLib) (c : Cfb) (p : Path)
    (hp : ∀ i, E.key p ≠ E.key (imageStream i)) :
    (imagesToWebp E P c).2.get E.toCfbLib p = c.get E.toCfbLib p := by
  obtain ⟨n, h⟩ := imagesToWebp_writes (E := E) (P := P) c
  exact h.get fun k _ _ => hp k

/-- the script, the version, the items and the sounds are among what does not change -/
example (i : Nat) : sampleEnv.key gameDataPath ≠ sampleEnv.key (imageStream i) :=
  key_ne_of_kind (by rw [kind_image, kind_gameData]; decide)

/-- **C90.** The check of the checksum gives the same afterwards, in a file whose custom info tags are plain names. -/
theorem C90_verify (E : Env) (P : PictureLib) (c : Cfb) (ht : ∀ t ∈ tagNames E.toCfbLib c, TagName t) :
    verify E (imagesToWebp E P c).2 = verify E c := by
  obtain ⟨n, h⟩ := imagesToWebp_writes (E := E) (P := P) c
  unfold verify readMac
  rw [h.mac ht, h.openStream (by rw [kind_game (by decide)]; decide)]

/-! ### What is read afterwards -/

/-- one report for each image, some of them empty -/
def Reports (P : PictureLib) (images : List ImageData) (conversions : List Conversion) : Prop :=
  ∃ each : List (Option Conversion), each.length = images.length ∧ conversions = each.filterMap id ∧
    ∀ (i : Nat) im o, images[i]? = some im → each[i]? = some o → ∀ cv, o = some cv ↔ Reported P im cv

theorem Reports.cons {im : ImageData} {ims : List ImageData} {o : Option Conversion} {cvs : List Conversion}
    (ho : ∀ cv, o = some cv ↔ Reported P im cv) (h : Reports P ims cvs) : Reports P (im :: ims) (o.toList ++ cvs) := by
  obtain ⟨each, h1, h2, h3⟩ := h
  refine ⟨o :: each, by simp [h1], ?_, ?_⟩
  · rw [h2]; cases o <;> simp
  · intro i im' o' hi ho'
    cases i with
    | zero => simp only [List.getElem?_cons_zero, Option.some.injEq] at hi ho'; subst hi; subst ho'; exact ho
    | succ i => exact h3 i im' o' (by simpa using hi) (by simpa using ho')

theorem WebpUpTo.refl (L : PictureLaws P) (xs : List ImageData) : WebpUpTo P L 0 xs xs :=
  ⟨rfl, fun i o n h1 h2 => ⟨fun h => by omega, fun _ => by rw [h1] at h2; cases h2; rfl⟩⟩

theorem WebpUpTo.cons {L : PictureLaws P} {k : Nat} {x y : ImageData} {xs ys : List ImageData} (h : WebpStep P L x y)
    (hs : WebpUpTo P L k xs ys) : WebpUpTo P L (k + 1) (x :: xs) (y :: ys) := by
  refine ⟨by simp [hs.1], fun i o n h1 h2 => ?_⟩
  cases i with
  | zero =>
    simp only [List.getElem?_cons_zero, Option.some.injEq] at h1 h2
    subst h1; subst h2
    exact ⟨fun _ => h, fun h => by omega⟩
  | succ i =>
    obtain ⟨a, b⟩ := hs.2 i o n (by simpa using h1) (by simpa using h2)
    exact ⟨fun hi => a (by omega), fun hi => b (by omega)⟩

/-- a converted image can be stored and read back -/
theorem webp_storable {L : PictureLaws P} {b : Bytes} {im n : ImageData} {rep : Option Conversion}
    (hb : ImageData.read b = .ok im) (hr : ReadyForWebp P im) (h : convertImage P im = .ok (some n, rep)) :
    WebpStep P L im n ∧ ∃ bs, n.write = .ok bs ∧ ImageData.read bs = .ok n := by
  obtain ⟨h1, h2, -⟩ := convert_spec L h hr
  have hc : Convertible P im := Classical.byContradiction fun hn => by cases h2 hn
  obtain ⟨n', hn, hw, hp, j, hj, hdata, hform⟩ := h1 hc
  cases hn
  refine ⟨⟨fun _ => hw, fun hn => absurd hc hn⟩, C15_image_roundtrip n ?_⟩
  have hi : im.RInv := readStruct_inv ImageData.arms_inv ImageData.init_inv hb
  have hbits : n.bits = none := by rw [hw.rest]
  have hpath : Text n.path := by rw [hp]; exact changePathExt_text hi.2.2.1 hr.path
  refine ⟨⟨?_, ?_, hpath, ?_, ?_⟩, ?_, .inl hbits⟩
  · rw [hw.rest]; exact hi.1
  · rw [hw.rest]; exact hi.2.1
  · rw [hw.rest]; exact hi.2.2.2.1
  · rw [hj]
    refine OptP.some ?_
    rcases hform with ⟨k, hk, he⟩ | he
    · have := hi.2.2.2.2.2 k hk
      rw [he]
      exact ⟨this.1, this.2.1, changePathExt_text this.2.2 (hr.jpeg k hk), hdata⟩
    · rw [he]
      exact ⟨hi.1, OptP.none, hpath, hdata⟩
  · rw [hbits]; exact OptP.none

theorem readFrom_head {α : Type} {name : Str} {dec : Bytes → Res α} {i n : Nat} {c : Cfb} {xs : List α}
    (h : readFrom E name dec i (n + 1) c = .ok xs) :
    ∃ b x rest, c.openStream E.toCfbLib (itemPath name i) = .ok b ∧ dec b = .ok x ∧
      readFrom E name dec (i + 1) n c = .ok rest ∧ xs = x :: rest := by
  unfold readFrom at h
  obtain ⟨b, h1, h⟩ := Res.unbind h
  obtain ⟨x, h2, h⟩ := Res.unbind h
  obtain ⟨rest, h3, h⟩ := Res.unbind h
  cases h
  exact ⟨b, x, rest, h1, h2, h3, rfl⟩

theorem readFrom_cons {α : Type} {name : Str} {dec : Bytes → Res α} {i n : Nat} {c : Cfb} {b : Bytes} {x : α}
    {rest : List α} (h1 : c.openStream E.toCfbLib (itemPath name i) = .ok b) (h2 : dec b = .ok x)
    (h3 : readFrom E name dec (i + 1) n c = .ok rest) : readFrom E name dec i (n + 1) c = .ok (x :: rest) := by
  unfold readFrom
  rw [Res.thenOk h1, Res.thenOk h2, Res.thenOk h3]
  rfl

/-- streams with numbers in a range are read alike -/
theorem readFrom_range {α : Type} {c c' : Cfb} {name : Str} {dec : Bytes → Res α} (n : Nat) :
    ∀ i, (∀ k, i ≤ k → k < i + n → c'.openStream E.toCfbLib (itemPath name k) = c.openStream E.toCfbLib (itemPath name k)) →
      readFrom E name dec i n c' = readFrom E name dec i n c := by
  induction n with
  | zero => intro i _; rfl
  | succ n ih =>
    intro i h
    unfold readFrom
    rw [h i (by omega) (by omega), ih (i + 1) fun k h1 h2 => h k (by omega) (by omega)]

theorem image_key {a b : Nat} (h : a ≠ b) : E.key (imageStream a) ≠ E.key (imageStream b) :=
  fun he => h (key_item_inj (by decide) he)

theorem webpFrom_main (L : PictureLaws P) (n : Nat) : ∀ i c xs,
    readFrom E "Image".toList ImageData.read i n c = .ok xs → (∀ x ∈ xs, ReadyForWebp P x) →
    ∃ ys k, readFrom E "Image".toList ImageData.read i n (webpFrom E P i n c).2 = .ok ys ∧ WebpUpTo P L k xs ys ∧
      k ≤ xs.length ∧ (∀ conv, (webpFrom E P i n c).1 = .ok conv → k = xs.length ∧ Reports P xs conv) ∧
      (∀ e, (webpFrom E P i n c).1 = .error e → k < xs.length) ∧
      ((∀ x ∈ xs, CanBecomeWebp P x) → ∃ conv, (webpFrom E P i n c).1 = .ok conv) := by
  induction n with
  | zero =>
    intro i c xs h hr
    cases h
    exact ⟨[], 0, rfl, .refl L _, Nat.le_refl _, fun conv hc => by
      cases hc; exact ⟨rfl, [], rfl, rfl, by simp⟩, nofun, fun _ => ⟨[], rfl⟩⟩
  | succ n ih =>
    intro i c xs h hr
    obtain ⟨b, x, rest, h1, h2, h3, rfl⟩ := readFrom_head h
    have hread : (do ImageData.read (← c.openStream E.toCfbLib (itemPath "Image".toList i)) : Res ImageData) = .ok x := by
      rw [Res.thenOk h1]; exact h2
    have hx := hr x List.mem_cons_self
    have hrest := fun y hy => hr y (List.mem_cons_of_mem x hy)
    unfold webpFrom
    rw [hread]
    dsimp only
    cases hc : convertImage P x with
    | error e =>
      dsimp only
      exact ⟨x :: rest, 0, h, .refl L _, by omega, nofun, fun _ _ => by simp, fun hcan => by
        obtain ⟨r, hr⟩ := convert_ok (hcan x List.mem_cons_self)
        rw [hc] at hr; cases hr⟩
    | ok r =>
      obtain ⟨new, rep⟩ := r
      have hrep := (convert_spec L hc hx).2.2
      -- the file after this image
      obtain ⟨c1, b1, y, hc1, hb1, hy, hstep, hlater⟩ : ∃ c1 b1 y, replaceImage E i new c = .ok c1 ∧
          c1.openStream E.toCfbLib (imageStream i) = .ok b1 ∧ ImageData.read b1 = .ok y ∧ WebpStep P L x y ∧
          readFrom E "Image".toList ImageData.read (i + 1) n c1 = .ok rest := by
        cases new with
        | none =>
          refine ⟨c, b, x, rfl, h1, h2, ⟨fun hn => ?_, fun _ => rfl⟩, h3⟩
          obtain ⟨_, hn, _⟩ := (convert_spec L hc hx).1 hn
          cases hn
        | some y =>
          obtain ⟨hstep, bs, w1, w2⟩ := webp_storable (L := L) h2 hx hc
          have hold : ∃ old, c.get E.toCfbLib (imageStream i) = some (.stream old) := by
            unfold Cfb.openStream at h1
            split at h1
            · next old ho => exact ⟨old, ho⟩
            · cases h1
          obtain ⟨old, hold⟩ := hold
          obtain ⟨c1, hc1⟩ := Cfb.createStream_replace bs hold
          refine ⟨c1, bs, y, ?_, ?_, w2, hstep, ?_⟩
          · unfold replaceImage overwriteImage
            dsimp only
            rw [Res.thenOk w1]
            exact hc1
          · refine openStream_of_get ?_
            rw [Cfb.get_createStream hc1, if_pos rfl]
          · rw [readFrom_range (c := c) n (i + 1)]
            · exact h3
            · intro k hk _
              unfold Cfb.openStream
              rw [Cfb.get_createStream hc1, if_neg (image_key (by omega))]
      dsimp only
      rw [hc1]
      dsimp only
      obtain ⟨ys, k, r1, r2, r3, r4, re, r5⟩ := ih (i + 1) c1 rest hlater hrest
      refine ⟨y :: ys, k + 1, readFrom_cons ?_ hy r1, .cons hstep r2, by simp [r3], ?_, ?_, ?_⟩
      · unfold Cfb.openStream at hb1 ⊢
        rw [(webpFrom_writes n (i + 1) c1).get fun k hk _ => image_key (by omega)]
        exact hb1
      · intro conv hconv
        cases hr : (webpFrom E P (i + 1) n c1).1 with
        | error e => rw [hr] at hconv; cases hconv
        | ok cs =>
          rw [hr] at hconv
          cases hconv
          obtain ⟨e1, e2⟩ := r4 cs hr
          exact ⟨by simp [e1], .cons hrep e2⟩
      · intro e he
        cases hr : (webpFrom E P (i + 1) n c1).1 with
        | error e' => have := re e' hr; simp only [List.length_cons]; omega
        | ok cs => rw [hr] at he; cases he
      · intro hcan
        obtain ⟨cs, hcs⟩ := r5 fun y hy => hcan y (List.mem_cons_of_mem x hy)
        rw [hcs]
        exact ⟨_, rfl⟩

/-- the parts of a table that was read -/
theorem VPX.read_parts {c : Cfb} {s : VPX} (h : VPX.read E c = .ok s) :
    fileGameData E c = .ok s.gamedata ∧
    readFrom E "Image".toList ImageData.read 0 s.gamedata.images_size.toNat c = .ok s.images := by
  unfold VPX.read at h
  obtain ⟨tags, r1, h⟩ := Res.bind_inv h
  obtain ⟨info, r2, h⟩ := Res.bind_inv h
  obtain ⟨version, r3, h⟩ := Res.bind_inv h
  obtain ⟨gd, r4, h⟩ := Res.bind_inv h
  obtain ⟨items, r5, h⟩ := Res.bind_inv h
  obtain ⟨images, r6, h⟩ := Res.bind_inv h
  obtain ⟨sounds, r7, h⟩ := Res.bind_inv h
  obtain ⟨fonts, r8, h⟩ := Res.bind_inv h
  obtain ⟨colls, r9, h⟩ := Res.bind_inv h
  cases h
  refine ⟨?_, r6⟩
  unfold fileGameData
  rw [Res.thenOk r3]
  exact r4

/-- a table whose images were rewritten -/
theorem ImageWrites.read {lo hi : Nat} {c c' : Cfb} (h : ImageWrites E lo hi c c') {s : VPX} (hr : VPX.read E c = .ok s)
    {ys : List ImageData} (hy : readFrom E "Image".toList ImageData.read 0 s.gamedata.images_size.toNat c' = .ok ys) :
    VPX.read E c' = .ok { s with images := ys } := by
  have item : ∀ name, Stem name → name.map asciiUpper ≠ "Image".toList.map asciiUpper → ∀ i,
      c'.get E.toCfbLib (itemPath name i) = c.get E.toCfbLib (itemPath name i) := by
    intro name hs hn i
    refine h.get_kind ?_
    rw [kind_item hs]
    intro he
    simp only [gkind, List.cons.injEq, and_true, true_and] at he
    exact hn he
  have ht : readCustomInfoTags E c' = readCustomInfoTags E c := by
    unfold readCustomInfoTags
    rw [h.get_kind (by rw [kind_game (by decide)]; decide)]
  have hi : TableInfo.read E.toCfbLib c' = TableInfo.read E.toCfbLib c := by
    unfold TableInfo.read; rw [h.children]
  have hv : readVersion E c' = readVersion E c := by
    unfold readVersion
    rw [h.openStream (by rw [kind_game (by decide)]; decide)]
  have hg : ∀ v, readGameData E v c' = readGameData E v c := by
    intro v
    unfold readGameData
    rw [h.openStream (by rw [kind_game (by decide)]; decide)]
  unfold VPX.read at hr ⊢
  obtain ⟨tags, r1, hr⟩ := Res.bind_inv hr
  obtain ⟨info, r2, hr⟩ := Res.bind_inv hr
  obtain ⟨version, r3, hr⟩ := Res.bind_inv hr
  obtain ⟨gd, r4, hr⟩ := Res.bind_inv hr
  obtain ⟨items, r5, hr⟩ := Res.bind_inv hr
  obtain ⟨images, r6, hr⟩ := Res.bind_inv hr
  obtain ⟨sounds, r7, hr⟩ := Res.bind_inv hr
  obtain ⟨fonts, r8, hr⟩ := Res.bind_inv hr
  obtain ⟨colls, r9, hr⟩ := Res.bind_inv hr
  cases hr
  refine Res.bind_ok (ht.trans r1) ?_
  refine Res.bind_ok (hi.trans r2) ?_
  refine Res.bind_ok (hv.trans r3) ?_
  refine Res.bind_ok ((hg _).trans r4) ?_
  refine Res.bind_ok ((readFrom_congr (item _ (by decide) (by decide)) _ _).trans r5) ?_
  refine Res.bind_ok hy ?_
  refine Res.bind_ok ((readFrom_congr (item _ (by decide) (by decide)) _ _).trans r7) ?_
  refine Res.bind_ok ((readFrom_congr (item _ (by decide) (by decide)) _ _).trans r8) ?_
  refine Res.bind_ok ((readFrom_congr (item _ (by decide) (by decide)) _ _).trans r9) ?_
  rfl

/-- **C90.** After the call, whether it succeeded or failed, the table can still be read, and is the same but for its
images. The first of them have been taken care of — convertible ones are now WebP images that show the same, others are
the same — and the rest are untouched. If the call succeeded, all have been taken care of, and the report lists them in
order. -/
theorem C90_table (E : Env) (P : PictureLib) (L : PictureLaws P) (c : Cfb) (s : VPX) (hr : VPX.read E c = .ok s)
    (hready : ∀ im ∈ s.images, ReadyForWebp P im) :
    ∃ images k, VPX.read E (imagesToWebp E P c).2 = .ok { s with images := images } ∧
      WebpUpTo P L k s.images images ∧
      ∀ conversions, (imagesToWebp E P c).1 = .ok conversions →
        k = s.images.length ∧ Reports P s.images conversions := by
  obtain ⟨p1, p2⟩ := VPX.read_parts hr
  have he : imagesToWebp E P c = webpFrom E P 0 s.gamedata.images_size.toNat c := by
    unfold imagesToWebp; rw [p1]
  obtain ⟨ys, k, r1, r2, -, r4, -, -⟩ := webpFrom_main L _ 0 c s.images p2 hready
  rw [he]
  exact ⟨ys, k, (webpFrom_writes _ 0 c).read hr r1, r2, r4⟩

/-- **C90.** The call succeeds if every bitmap decompresses to enough data and every picture can be encoded. -/
theorem C90_succeeds (E : Env) (P : PictureLib) (L : PictureLaws P) (c : Cfb) (s : VPX) (hr : VPX.read E c = .ok s)
    (hready : ∀ im ∈ s.images, ReadyForWebp P im) (hcan : ∀ im ∈ s.images, CanBecomeWebp P im) :
    ∃ conversions, (imagesToWebp E P c).1 = .ok conversions := by
  obtain ⟨p1, p2⟩ := VPX.read_parts hr
  have he : imagesToWebp E P c = webpFrom E P 0 s.gamedata.images_size.toNat c := by
    unfold imagesToWebp; rw [p1]
  obtain ⟨ys, k, -, -, -, -, -, r5⟩ := webpFrom_main L _ 0 c s.images p2 hready
  rw [he]
  exact r5 hcan

/-! ### Doing it again -/

/-- an image that cannot be converted is left alone -/
theorem convert_idle {im : ImageData} (h : ¬ Convertible P im) : ∃ rep, convertImage P im = .ok (none, rep) := by
  unfold convertImage
  split
  · next hp =>
    dsimp only [ImageData.changeExt]
    cases hj : im.jpeg with
    | none => exact ⟨_, rfl⟩
    | some j =>
      simp only [Option.map_some]
      cases hd : P.ofPng j.data with
      | none => exact ⟨_, rfl⟩
      | some d => exact absurd (.png j d hp hj hd) h
  · split
    · next hb =>
      dsimp only [ImageData.changeExt]
      cases hbits : im.bits with
      | none => exact ⟨_, rfl⟩
      | some bits => exact absurd (.bmp bits hb hbits) h
    · exact ⟨_, rfl⟩

/-- a converted image is not convertible -/
theorem WebpOf.done {L : PictureLaws P} {old new : ImageData} (h : WebpOf P L old new) : ¬ Convertible P new := by
  obtain ⟨stem, ext, -, -, hp⟩ := h.path
  intro hc
  cases hc with
  | png _ _ h1 => exact absurd h1 (by unfold HasExt; rw [webp_ext (by decide) hp]; nofun)
  | bmp _ h1 _ => exact absurd h1 (by unfold HasExt; rw [webp_ext (by decide) hp]; nofun)

theorem webpFrom_idle (n : Nat) : ∀ i c xs, readFrom E "Image".toList ImageData.read i n c = .ok xs →
    (∀ x ∈ xs, ¬ Convertible P x) → ∃ conv, webpFrom E P i n c = (.ok conv, c) := by
  induction n with
  | zero => intro i c xs _ _; exact ⟨[], rfl⟩
  | succ n ih =>
    intro i c xs h hn
    obtain ⟨b, x, rest, h1, h2, h3, rfl⟩ := readFrom_head h
    obtain ⟨rep, hrep⟩ := convert_idle (hn x List.mem_cons_self)
    obtain ⟨conv, hconv⟩ := ih (i + 1) c rest h3 fun y hy => hn y (List.mem_cons_of_mem x hy)
    refine ⟨rep.toList ++ conv, ?_⟩
    unfold webpFrom
    rw [Res.thenOk h1, h2]
    dsimp only
    rw [hrep]
    dsimp only [replaceImage]
    rw [hconv]
    rfl

/-- **C90.** Once the call has succeeded, another one succeeds and changes nothing in the file. -/
theorem C90_twice (E : Env) (P : PictureLib) (L : PictureLaws P) (c : Cfb) (s : VPX) (hr : VPX.read E c = .ok s)
    (hready : ∀ im ∈ s.images, ReadyForWebp P im) (conversions : List Conversion) (c' : Cfb)
    (h : imagesToWebp E P c = (.ok conversions, c')) :
    ∃ again, imagesToWebp E P c' = (.ok again, c') := by
  obtain ⟨images, k, r1, r2, r3⟩ := C90_table E P L c s hr hready
  rw [h] at r1 r3
  obtain ⟨rfl, -⟩ := r3 conversions rfl
  obtain ⟨p1, p2⟩ := VPX.read_parts r1
  unfold imagesToWebp
  rw [p1]
  refine webpFrom_idle _ 0 c' _ p2 ?_
  intro y hy
  obtain ⟨i, hi⟩ := List.mem_iff_getElem?.1 hy
  have hlt : i < s.images.length := by
    rw [← r2.1]; exact (List.getElem?_eq_some_iff.1 hi).1
  have hstep := (r2.2 i _ y (List.getElem?_eq_getElem hlt) hi).1 hlt
  by_cases hc : Convertible P (s.images[i])
  · exact (hstep.1 hc).done
  · rw [hstep.2 hc]; exact hc

/-! ### Examples -/

/-- pictures as rasters; "PNG files" are rasters of one by two pixels, "WebP files" begin with the size -/
def toyPictures : PictureLib where
  Picture := Raster
  ofPng bs := if bs.length = 8 then some (1, 2, bs) else none
  ofWebp := fun
    | a :: b :: px => some (a.toUInt32, b.toUInt32, px)
    | _ => none
  toWebp p := if p.1.toNat < 256 ∧ p.2.1.toNat < 256 ∧ p.2.2.length < 1000 then
    some (p.1.toUInt8 :: p.2.1.toUInt8 :: p.2.2) else none
  ofRgba w h data := (w, h, data.take (4 * (w.toNat * h.toNat)))
  dropAlpha p := p
  fromLzw := .ok

def toyLaws : PictureLaws toyPictures where
  raster p := p
  ofRgba _ _ _ _ := rfl
  dropAlpha _ _ := rfl
  lossless := by
    rintro ⟨w, h, px⟩ data hd
    dsimp only [toyPictures] at hd
    split at hd
    · next hs =>
      cases hd
      refine ⟨_, rfl, ?_⟩
      have e : ∀ x : UInt32, x.toNat < 256 → x.toUInt8.toUInt32 = x := by
        intro x hx
        apply UInt32.toNat_inj.1
        simp only [UInt8.toNat_toUInt32, UInt32.toNat_toUInt8]
        omega
      rw [e w hs.1, e h hs.2.1]
    · cases hd
  size := by
    rintro ⟨w, h, px⟩ data hd
    dsimp only [toyPictures] at hd
    split at hd
    · next hs =>
      cases hd
      unfold RecordData
      simp only [List.length_cons]
      have := hs.2.2
      omega
    · cases hd

/-- an image with a file, and one with a bitmap of one half transparent pixel -/
def webpImages : List ImageData :=
  [ImageData.sample,
   { ImageData.sampleBits with
     path := "ball.Bmp".toList, width := 1, height := 1, bits := some [4, 1, 2, 3, 128] }]

def webpSample : VPX := { VPX.sample with images := webpImages }

theorem webpSample_wf : webpSample.WF sampleEnv :=
  { VPX.sample_wf with
    images := by
      intro x hx
      simp only [webpSample, webpImages, List.mem_cons, List.not_mem_nil, or_false] at hx
      rcases hx with rfl | rfl
      · exact ⟨ImageData.sample_fields, OptP.none, .inl rfl⟩
      · exact ⟨⟨by decide, OptP.some (by decide), by decide, OptP.some (by decide), OptP.none⟩,
          OptP.some (by decide), .inr rfl⟩
    counts := ⟨rfl, rfl, rfl, rfl, rfl⟩ }

/-- a table with an image of either format meets the hypotheses of `C90_table`, `C90_succeeds` and `C90_twice` -/
example : ∃ c s, VPX.read sampleEnv c = .ok s ∧ s.images = webpImages ∧
    (∀ im ∈ s.images, ReadyForWebp toyPictures im ∧ CanBecomeWebp toyPictures im ∧ Convertible toyPictures im) := by
  obtain ⟨c, s, hw, hr, hs⟩ := C22_table_roundtrip sampleEnv webpSample webpSample_wf
  have he : s.images = webpImages := hs.images.symm
  refine ⟨c, s, hr, he, ?_⟩
  rw [he]
  intro im him
  simp only [webpImages, List.mem_cons, List.not_mem_nil, or_false] at him
  rcases him with rfl | rfl
  · have hp : HasExt ImageData.sample "png" := by unfold HasExt; decide
    refine ⟨⟨.inl rfl, fun _ => by decide, by decide, fun j hj => by cases hj; decide⟩, ⟨?_, ?_⟩,
      .png _ _ hp rfl rfl⟩
    · intro j d _ hj hd
      cases hj; cases hd
      exact ⟨_, rfl⟩
    · intro bits hb
      exact absurd hb (png_not_bmp hp)
  · refine ⟨⟨.inr rfl, fun _ => by decide, by decide, nofun⟩, ⟨nofun, ?_⟩, .bmp _ (by unfold HasExt; decide) rfl⟩
    intro bits _ hb
    cases hb
    refine ⟨rfl, fun rgba => ?_⟩
    have hl : ∀ w h : UInt32, w = 1 → h = 1 → (toyPictures.toWebp (w, h, rgba.take (4 * (w.toNat * h.toNat)))).isSome := by
      rintro _ _ rfl rfl
      dsimp only [toyPictures]
      rw [if_pos ⟨by decide, by decide, by rw [List.length_take]; exact Nat.lt_of_le_of_lt (Nat.min_le_left _ _) (by decide)⟩]
      rfl
    exact ⟨hl 1 1 rfl rfl, hl 1 1 rfl rfl⟩

/-- the two images after conversion -/
example : (webpImages.map (convertImage toyPictures)).map (fun r => r.toOption.bind fun x => x.1.bind fun im =>
      im.jpeg.map fun j => (String.ofList im.path, j.data)) =
    [some ("C:\\x.y\\playfield.webp", [1, 2] ++ altvBytes ++ [0x45, 0x4e, 0x44, 0x42]),
     some ("ball.webp", [1, 1, 3, 2, 1, 128])] := by
  decide +kernel

/-! ### What does not hold -/

/-- **C90 fails** for the report: an image with the extension BMP that has no bitmap (but an embedded file) is reported
as converted, although it is not. -/
theorem C90_report_counterexample : ∃ im : ImageData, im.jpeg ≠ none ∧ ¬ Convertible toyPictures im ∧
    convertImage toyPictures im = .ok (none, some ⟨im.name, "bmp".toList, "webp".toList⟩) := by
  refine ⟨{ ImageData.sample with path := "a.bmp".toList }, nofun, ?_, by decide +kernel⟩
  intro h
  cases h with
  | png _ _ h1 => exact absurd h1 (by unfold HasExt; decide)
  | bmp _ _ h2 => cases h2

/-- **C90 fails** without a dot in the path: an image whose path is just `png` is overwritten with WebP data, but still
has the extension PNG. -/
theorem C90_no_dot_counterexample : ∃ im new : ImageData, ∃ rep, convertImage toyPictures im = .ok (some new, rep) ∧
    new.path = "png".toList ∧ new.ext = "png".toList ∧ new.jpeg ≠ im.jpeg :=
  ⟨{ ImageData.sample with path := "png".toList }, { ImageData.sample with
      path := "png".toList
      jpeg := some ⟨"a.webp".toList, "é".toList, some [], [1, 2] ++ altvBytes ++ [0x45, 0x4e, 0x44, 0x42]⟩ },
    some ⟨ImageData.sample.name, "png".toList, "webp".toList⟩, by decide +kernel, rfl, by decide, by decide⟩

/-- **C90 fails** for the stored hash: the data changes, the MD5 hash that goes with it does not. -/
theorem C90_hash_counterexample : ∃ new rep, convertImage toyPictures ImageData.sample = .ok (some new, rep) ∧
    new.jpeg.map (·.data) ≠ ImageData.sample.jpeg.map (·.data) ∧ new.md5_hash = ImageData.sample.md5_hash ∧
    new.md5_hash ≠ none :=
  ⟨{ ImageData.sample with
      path := "C:\\x.y\\playfield.webp".toList
      jpeg := some ⟨"a.webp".toList, "é".toList, some [], [1, 2] ++ altvBytes ++ [0x45, 0x4e, 0x44, 0x42]⟩ },
    some ⟨ImageData.sample.name, "png".toList, "webp".toList⟩, by decide +kernel, by decide, rfl, nofun⟩

end Vpin
