import Verif.Model.Base

/-! Model of `crates/joker/src/word.rs`. -/

namespace Esprit

/-- word.rs:33-75 `Reserved`: unconditionally reserved words. -/
inductive Reserved where
  | «null»
  | «true»
  | «false»
  | «break»
  | «case»
  | «catch»
  | «class»
  | «const»
  | «continue»
  | «debugger»
  | «default»
  | «delete»
  | «do»
  | «else»
  | «export»
  | «extends»
  | «finally»
  | «for»
  | «function»
  | «if»
  | «import»
  | «in»
  | «instanceof»
  | «new»
  | «return»
  | «super»
  | «switch»
  | «this»
  | «throw»
  | «try»
  | «typeof»
  | «var»
  | «void»
  | «while»
  | «with»
  | «enum»
  deriving DecidableEq, Repr

/-- word.rs:78-122 `Reserved::name`. -/
def Reserved.name : Reserved → Str
  | .«null» => c!"null"
  | .«true» => c!"true"
  | .«false» => c!"false"
  | .«break» => c!"break"
  | .«case» => c!"case"
  | .«catch» => c!"catch"
  | .«class» => c!"class"
  | .«const» => c!"const"
  | .«continue» => c!"continue"
  | .«debugger» => c!"debugger"
  | .«default» => c!"default"
  | .«delete» => c!"delete"
  | .«do» => c!"do"
  | .«else» => c!"else"
  | .«export» => c!"export"
  | .«extends» => c!"extends"
  | .«finally» => c!"finally"
  | .«for» => c!"for"
  | .«function» => c!"function"
  | .«if» => c!"if"
  | .«import» => c!"import"
  | .«in» => c!"in"
  | .«instanceof» => c!"instanceof"
  | .«new» => c!"new"
  | .«return» => c!"return"
  | .«super» => c!"super"
  | .«switch» => c!"switch"
  | .«this» => c!"this"
  | .«throw» => c!"throw"
  | .«try» => c!"try"
  | .«typeof» => c!"typeof"
  | .«var» => c!"var"
  | .«void» => c!"void"
  | .«while» => c!"while"
  | .«with» => c!"with"
  | .«enum» => c!"enum"

/-- word.rs:131-150 `Atom`: contextually reserved words and special names. -/
inductive Atom where
  | arguments
  | async
  | await
  | eval
  | «from»
  | get
  | implements
  | interface
  | «let»
  | of
  | package
  | «private»
  | «protected»
  | «public»
  | set
  | «static»
  | target
  | yield
  deriving DecidableEq, Repr

/-- word.rs:210-231 `Atom::name`. -/
def Atom.name : Atom → Str
  | .arguments => c!"arguments"
  | .async => c!"async"
  | .await => c!"await"
  | .eval => c!"eval"
  | .«from» => c!"from"
  | .get => c!"get"
  | .implements => c!"implements"
  | .interface => c!"interface"
  | .«let» => c!"let"
  | .of => c!"of"
  | .package => c!"package"
  | .«private» => c!"private"
  | .«protected» => c!"protected"
  | .«public» => c!"public"
  | .set => c!"set"
  | .«static» => c!"static"
  | .target => c!"target"
  | .yield => c!"yield"

/-- word.rs:153-156 `Name`. -/
inductive Name where
  | atom (a : Atom)
  | string (s : Str)
  deriving DecidableEq, Repr

/-- word.rs:159-164 `Name::atom`. -/
def Name.toAtom : Name → Option Atom
  | .atom a => some a
  | .string _ => none

/-- word.rs:166-171 `Name::into_string` (and word.rs:174-181 `AsRef<str>`). -/
def Name.intoString : Name → Str
  | .atom a => a.name
  | .string s => s

/-- word.rs:183-207 `From<String> for Name`. -/
def Name.from (s : Str) : Name :=
  if s = c!"arguments" then .atom .arguments
  else if s = c!"await" then .atom .await
  else if s = c!"eval" then .atom .eval
  else if s = c!"async" then .atom .async
  else if s = c!"from" then .atom .«from»
  else if s = c!"get" then .atom .get
  else if s = c!"implements" then .atom .implements
  else if s = c!"interface" then .atom .interface
  else if s = c!"let" then .atom .«let»
  else if s = c!"of" then .atom .of
  else if s = c!"package" then .atom .package
  else if s = c!"private" then .atom .«private»
  else if s = c!"protected" then .atom .«protected»
  else if s = c!"public" then .atom .«public»
  else if s = c!"set" then .atom .set
  else if s = c!"static" then .atom .«static»
  else if s = c!"target" then .atom .target
  else if s = c!"yield" then .atom .yield
  else .string s

/-- word.rs:8-11 `Word`: a word with potential escape sequences. -/
structure Word where
  hadEscape : Bool
  text : Str
  deriving DecidableEq, Repr

/-- word.rs:14-19 `Word::new`. -/
def Word.new : Word := ⟨false, []⟩

/-- word.rs:254-273 the `reserved` table of `Map::new`. -/
def reservedTable : List (Str × Reserved) := [
  (c!"null", .«null»),
  (c!"true", .«true»),
  (c!"false", .«false»),
  (c!"break", .«break»),
  (c!"case", .«case»),
  (c!"catch", .«catch»),
  (c!"class", .«class»),
  (c!"const", .«const»),
  (c!"continue", .«continue»),
  (c!"debugger", .«debugger»),
  (c!"default", .«default»),
  (c!"delete", .«delete»),
  (c!"do", .«do»),
  (c!"else", .«else»),
  (c!"export", .«export»),
  (c!"extends", .«extends»),
  (c!"finally", .«finally»),
  (c!"for", .«for»),
  (c!"function", .«function»),
  (c!"if", .«if»),
  (c!"import", .«import»),
  (c!"in", .«in»),
  (c!"instanceof", .«instanceof»),
  (c!"new", .«new»),
  (c!"return", .«return»),
  (c!"super", .«super»),
  (c!"switch", .«switch»),
  (c!"this", .«this»),
  (c!"throw", .«throw»),
  (c!"try", .«try»),
  (c!"typeof", .«typeof»),
  (c!"var", .«var»),
  (c!"void", .«void»),
  (c!"while", .«while»),
  (c!"with", .«with»),
  (c!"enum", .«enum»)]

/-- word.rs:275-293 the `contextual` table of `Map::new`. -/
def contextualTable : List (Str × Atom) := [
  (c!"arguments", .arguments),
  (c!"eval", .eval),
  (c!"yield", .yield),
  (c!"await", .await),
  (c!"implements", .implements),
  (c!"interface", .interface),
  (c!"let", .«let»),
  (c!"package", .package),
  (c!"private", .«private»),
  (c!"protected", .«protected»),
  (c!"public", .«public»),
  (c!"static", .«static»),
  (c!"async", .async),
  (c!"from", .«from»),
  (c!"of", .of),
  (c!"get", .get),
  (c!"set", .set),
  (c!"target", .target)]

end Esprit
