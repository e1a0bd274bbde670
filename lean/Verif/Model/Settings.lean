/-!
# Settings

Models `settings.py`.
-/

namespace Pyogp

/-- `settings.py:21-96`: the attributes. -/
structure Settings where
  quietLogging : Bool
  spammyLogging : Bool
  HANDLE_PACKETS : Bool
  HANDLE_OUTGOING_PACKETS : Bool
  ENABLE_DEFERRED_PACKET_PARSING : Bool
  LOG_VERBOSE : Bool
  ENABLE_BYTES_TO_HEX_LOGGING : Bool
  ENABLE_CAPS_LOGGING : Bool
  ENABLE_CAPS_LLSD_LOGGING : Bool
  ENABLE_EQ_LOGGING : Bool
  ENABLE_UDP_LOGGING : Bool
  ENABLE_OBJECT_LOGGING : Bool
  LOG_SKIPPED_PACKETS : Bool
  ENABLE_HOST_LOGGING : Bool
  LOG_COROUTINE_SPAWNS : Bool
  PROXY_LOGGING : Bool
  DISABLE_SPAMMERS : Bool
  UDP_SPAMMERS : List String
  ENABLE_REGION_EVENT_QUEUE : Bool
  REGION_EVENT_QUEUE_POLL_INTERVAL : Nat
  ENABLE_LOGGING_IN_TESTS : Option Bool
  deriving DecidableEq, Repr

/-- `settings.py:30-68`: the defaults. -/
def Settings.defaults (quiet spammy : Bool) : Settings where
  quietLogging := quiet
  spammyLogging := spammy
  HANDLE_PACKETS := true
  HANDLE_OUTGOING_PACKETS := false
  ENABLE_DEFERRED_PACKET_PARSING := true
  LOG_VERBOSE := true
  ENABLE_BYTES_TO_HEX_LOGGING := false
  ENABLE_CAPS_LOGGING := true
  ENABLE_CAPS_LLSD_LOGGING := false
  ENABLE_EQ_LOGGING := true
  ENABLE_UDP_LOGGING := true
  ENABLE_OBJECT_LOGGING := true
  LOG_SKIPPED_PACKETS := true
  ENABLE_HOST_LOGGING := true
  LOG_COROUTINE_SPAWNS := true
  PROXY_LOGGING := false
  DISABLE_SPAMMERS := true
  UDP_SPAMMERS := ["PacketAck", "AgentUpdate"]
  ENABLE_REGION_EVENT_QUEUE := true
  REGION_EVENT_QUEUE_POLL_INTERVAL := 1
  ENABLE_LOGGING_IN_TESTS := none

/-- `settings.py:70-73`. -/
def Settings.spammy (s : Settings) : Settings :=
  if s.spammyLogging then
    { s with ENABLE_BYTES_TO_HEX_LOGGING := true, ENABLE_CAPS_LLSD_LOGGING := true, DISABLE_SPAMMERS := false }
  else s

/-- `settings.py:76-87`. -/
def Settings.quiet (s : Settings) : Settings :=
  if s.quietLogging then
    { s with
      LOG_VERBOSE := false, ENABLE_BYTES_TO_HEX_LOGGING := false, ENABLE_CAPS_LOGGING := false, ENABLE_CAPS_LLSD_LOGGING := false,
      ENABLE_EQ_LOGGING := false, ENABLE_UDP_LOGGING := false, LOG_SKIPPED_PACKETS := false, ENABLE_OBJECT_LOGGING := false,
      ENABLE_HOST_LOGGING := false, LOG_COROUTINE_SPAWNS := false, DISABLE_SPAMMERS := true }
  else s

/-- `settings.py:21-96` (`Settings(quiet_logging, spammy_logging, log_tests)`). -/
def Settings.new (quiet : Bool := false) (spammy : Bool := false) (logTests : Bool := true) : Settings :=
  { (Settings.defaults quiet spammy).spammy.quiet with ENABLE_LOGGING_IN_TESTS := some logTests }

end Pyogp
