import Verif.Model.VCardTool
/-
  Pictures, sounds and keys as objects with a history: the setters, and the readers of `Picture` that store what they
  computed in mutable members (picture.cpp, sound.cpp, key.cpp).
-/
namespace KC

/-- `Picture::data()`, picture.cpp:173-180, with its effect: a decoded image is kept in the member. -/
def Picture.readImage (E : QtEnv) (p : Picture) : Picture × Option (List UInt8) :=
  let i := if p.image.isNone && !p.rawData.isEmpty then E.loadImage p.rawData else p.image
  ({ p with image := i }, i)

/-- `Picture::rawData()`, picture.cpp:182-193, with its effect: the encoded image is kept in the member. -/
def Picture.readRaw (E : ToolEnv) (p : Picture) : Picture × QByteArray :=
  let r := if p.rawData.isEmpty then (match p.image with | some i => E.encodeImage i (toUpperQ p.type) | none => p.rawData)
    else p.rawData
  ({ p with rawData := r }, r)

/-- `Picture::setData`, picture.cpp:141-153; `none` is a null image; `alpha` is `QImage::hasAlphaChannel`, false for a
    null image. -/
def Picture.setImage (alpha : List UInt8 → Bool) (p : Picture) (i : Option (List UInt8)) : Picture :=
  { p with rawData := [], image := i, isIntern := true,
           type := if (match i with | some x => alpha x | none => false) then q! "png" else q! "jpeg" }

/-- The calls a program can make on a picture (picture.cpp:127-193). -/
inductive PictureOp where
  | setUrl (u : QString)
  | setUrlType (u t : QString)
  | setImage (i : Option (List UInt8))
  | setRawData (r : QByteArray) (t : QString)
  | readImage
  | readRaw

/-- One call. -/
def Picture.step (E : ToolEnv) (alpha : List UInt8 → Bool) (p : Picture) : PictureOp → Picture
  | .setUrl u => p.setUrl u
  | .setUrlType u t => p.setUrlType u t
  | .setImage i => p.setImage alpha i
  | .setRawData r t => p.setRawData r t
  | .readImage => (p.readImage E.toQtEnv).1
  | .readRaw => (p.readRaw E).1

/-- A history of calls. -/
def Picture.run (E : ToolEnv) (alpha : List UInt8 → Bool) (p : Picture) (ops : List PictureOp) : Picture :=
  ops.foldl (Picture.step E alpha) p

/-- `Sound(url)`, `Sound(data)`, sound.cpp:44-55, and the setters 101-111. -/
inductive SoundOp where
  | setUrl (u : QString)
  | setData (d : QByteArray)

/-- One call. -/
def Sound.step (s : Sound) : SoundOp → Sound
  | .setUrl u => s.setUrl u
  | .setData d => s.setData d

/-- The setters of a key, key.cpp:105-150. -/
inductive KeyOp where
  | setId (i : QString)
  | setBinaryData (b : QByteArray)
  | setTextData (t : QString)
  | setType (t : KeyType)
  | setCustomType (s : QString)

/-- One call: `Key::setId`, `setBinaryData`, `setTextData`, `setType`, `setCustomTypeString`, key.cpp:105-150. -/
def Key.step (k : Key) : KeyOp → Key
  | .setId i => { k with id := i }
  | .setBinaryData b => k.setBinaryData b
  | .setTextData t => k.setTextData t
  | .setType t => { k with type := t }
  | .setCustomType s => { k with customTypeString := s }

end KC
