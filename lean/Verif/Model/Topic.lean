import Verif.Model.Base
/-! Model of src/topic.rs.  A `&str` is the list of its characters (`String.toList`). -/
namespace Mqtt.Topic

/-- `str::split('/')`: always at least one piece, pieces without '/'; src/topic.rs 29, 60, 61 -/
def split : List Char → List (List Char)
  | [] => [[]]
  | c :: cs =>
    if c = '/' then [] :: split cs
    else match split cs with
      | p :: ps => (c :: p) :: ps
      | [] => [[c]]   -- unreachable: `split` never returns []

/-- src/topic.rs 4-6 `has_wildcards` -/
def has_wildcards (s : String) : Bool := s.toList.contains '+' || s.toList.contains '#'

/-- src/topic.rs 9-19 `valid_topic` -/
def valid_topic (topic : String) : Bool :=
  if topic.toList.contains '+' then false
  else if topic.toList.contains '#' then false
  else true

/-- `str::len` of a piece: its length in bytes; src/topic.rs 42 -/
def byteLen (p : List Char) : Nat := (p.map Char.utf8Size).sum

/-- src/topic.rs 24-48 `valid_filter`.  `hirerarchy.split_last()` is `getLast?`/`dropLast`;
it is `Some` because `split` never yields an empty list. -/
def valid_filter (filter : String) : Bool :=
  if filter.toList.isEmpty then false
  else
    let hirerarchy := split filter.toList
    match hirerarchy.getLast? with
    | none => true
    | some last =>
      let remaining := hirerarchy.dropLast
      if remaining.any (fun entry => entry.contains '#') then false
      else if byteLen last ≠ 1 && last.contains '#' then false
      else true

/-- src/topic.rs 63-80, the `for f in filters.by_ref()` loop, followed by lines 83-87:
iterates over the remaining filter levels, consuming topic levels -/
def matchesLoop : (filters topics : List (List Char)) → Bool
  | [], topics => if topics.head?.isSome then false else true
  | f :: filters, topics =>
    if f = ['#'] then true
    else match topics with
      | t :: topics =>
        if t = ['#'] then false
        else if f = ['+'] then matchesLoop filters topics
        else if f ≠ t then false
        else matchesLoop filters topics
      | [] => false

/-- src/topic.rs 55-88 `matches`.  `topic[..1]` panics when byte 1 is not a character boundary,
i.e. when the first character takes more than one byte. -/
def «matches» (topic filter : String) : Res Bool :=
  match topic.toList with
  | [] => .ok (matchesLoop (split filter.toList) (split topic.toList))
  | c :: _ =>
    if c.utf8Size ≠ 1 then .panic
    else if c = '$' then .ok false
    else .ok (matchesLoop (split filter.toList) (split topic.toList))

end Mqtt.Topic
