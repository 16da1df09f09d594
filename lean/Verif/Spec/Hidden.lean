/-
Received packets, and what is presented to the application, without the bytes of topics and messages.
-/
import Verif.Spec.Receiving
import Verif.Spec.Contents

namespace Mqtt.Spec
open Mqtt

/-- The body of a PUBLISH with zeros in the place of the topic name and of the message: the length of the topic name and the packet identifier (if the
quality of service is not 0) are kept.  The bodies of other packets are kept. -/
def hideBody (first : UInt8) : List UInt8 → List UInt8
  | a :: b :: rest =>
    let n := 256 * a.toNat + b.toNat
    if first.toNat / 16 = 3 then
      a :: b :: (blankBytes (rest.take n) ++
        (if first.toNat / 2 % 4 = 0 then blankBytes (rest.drop n) else (rest.drop n).take 2 ++ blankBytes ((rest.drop n).drop 2)))
    else a :: b :: rest
  | body => body

/-- A packet without the contents of topic name and message. -/
def hideRaw (p : Raw) : Raw := ⟨p.first, hideBody p.first p.body⟩

/-- A message as it is presented, without contents. -/
def hideView (v : PubView) : PubView := { v with topic := blankBytes v.topic, payload := blankBytes v.payload }

/-- A callback without the contents of topic name and message. -/
def hideEvent : Event → Event
  | .app first body id result pub => .app first (hideBody first body) id result (pub.map hideView)
  | e => e

end Mqtt.Spec
