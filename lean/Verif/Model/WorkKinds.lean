import Verif.Model.TaskGen
import Verif.Model.Core

/-!
# Model of the kinds of workload of the demo (`simulations/emerge/simulation/agent.go`, `simulations/emerge/simulation/builder.go`)

The colours of the kinds are not modelled.
-/

set_option autoImplicit false

namespace Verif

/-- `goalWorkloads`, simulations/emerge/simulation/agent.go:113-202: name and icon of the kinds of a goal. -/
def goalWorkloads : GoalType → Option (List (String × String))
  | 0 => some [("DataETL", "📊"), ("LogProcessor", "📝"), ("MLTraining", "🤖"), ("ReportGen", "📈"), ("ImageProc", "🖼️"),
      ("VideoTrans", "🎥"), ("DataValidator", "✅"), ("FileConverter", "📄")]
  | 1 => some [("WebServer1", "🌐"), ("WebServer2", "🌐"), ("APIGateway1", "🔌"), ("APIGateway2", "🔌"), ("LoadBalancer1", "⚖️"),
      ("LoadBalancer2", "⚖️"), ("CacheServer1", "💾"), ("CacheServer2", "💾")]
  | 2 => some [("Leader", "👑"), ("Candidate1", "🎯"), ("Candidate2", "🎯"), ("Follower1", "📡"), ("Follower2", "📡"),
      ("Follower3", "📡"), ("DataNode1", "💾"), ("DataNode2", "💾")]
  | 3 => some [("GameServer", "🎮"), ("StreamProc", "📡"), ("RTAnalytics", "⚡"), ("LiveChat", "💬"), ("Ticker", "📊"),
      ("Monitor", "📈"), ("Alerter", "🚨"), ("Tracker", "🎯")]
  | 4 => some [("TempSensor", "🌡️"), ("HumiditySensor", "💧"), ("LightSensor", "💡"), ("MotionSensor", "🏃"), ("SmokeSensor", "🔥"),
      ("DoorSensor", "🚪"), ("PowerMeter", "⚡"), ("WaterMeter", "💧")]
  | 5 => some [("CronJob1", "⏰"), ("CronJob2", "⏰"), ("Backup1", "💾"), ("Backup2", "💾"), ("Cleanup1", "🧹"), ("Cleanup2", "🧹"),
      ("Reporter1", "📊"), ("Reporter2", "📊")]
  | 6 => some [("Primary1", "🔵"), ("Primary2", "🔵"), ("Replica1", "🟢"), ("Replica2", "🟢"), ("Standby1", "🟡"), ("Standby2", "🟡"),
      ("Monitor1", "👁️"), ("Monitor2", "👁️")]
  | 7 => some [("AutoScaler1", "📏"), ("AutoScaler2", "📏"), ("CDN1", "🌍"), ("CDN2", "🌍"), ("Queue1", "📬"), ("Queue2", "📬"),
      ("Worker1", "⚙️"), ("Worker2", "⚙️")]
  | _ => none

/-- `getWorkloadsForGoal`, simulations/emerge/simulation/agent.go:205-211. -/
def getWorkloadsForGoal (g : GoalType) : List (String × String) :=
  match goalWorkloads g with
  | some roles => roles
  | none => (goalWorkloads 0).getD []

/-- The kind of a workload with the given type index, simulations/emerge/simulation/agent.go:239-240 (and 215-216): `%` takes the sign of the
dividend, and a negative index panics, as does an empty list. -/
def workloadKind (g : GoalType) (typeIndex : Int) : Outcome (String × String) :=
  let types := getWorkloadsForGoal g
  let i := Int.tmod typeIndex types.length
  if i < 0 then .panic
  else match types[i.toNat]? with
    | some k => .ok k
    | none => .panic

/-- The loop of `initialize`, simulations/emerge/simulation/builder.go:80-89, over the agents' IDs in the order in which the map yields them:
ID and kind of the workloads. -/
def initWorkloads (g : GoalType) (count : Int) : Int → List String → Outcome (List (String × (String × String)))
  | _, [] => .ok []
  | i, id :: ids =>
    if i ≥ count then .ok []
    else match workloadKind g i with
      | .panic => .panic
      | .ok k => match initWorkloads g count (i + 1) ids with
        | .panic => .panic
        | .ok l => .ok ((id, k) :: l)

/-- The map `taskTypes` of `createTask`, simulations/emerge/simulation/agent.go:421-501. -/
def taskTypes : List (String × List String) :=
  [("DataETL", ["extract_records", "transform_dataset", "load_warehouse"]),
   ("LogProcessor", ["parse_logs", "aggregate_metrics", "detect_anomalies"]),
   ("MLTraining", ["train_model", "evaluate_model", "tune_hyperparams"]),
   ("ReportGen", ["generate_daily", "generate_weekly", "generate_monthly"]),
   ("ImageProc", ["resize_batch", "optimize_batch", "convert_format"]),
   ("VideoTrans", ["transcode_1080p", "transcode_720p", "extract_audio"]),
   ("DataValidator", ["validate_schema", "check_integrity", "verify_rules"]),
   ("FileConverter", ["convert_pdf", "convert_csv", "convert_json"]),
   ("WebServer1", ["handle_request", "serve_static", "process_api"]),
   ("WebServer2", ["handle_request", "serve_static", "process_api"]),
   ("APIGateway1", ["route_request", "validate_auth", "rate_limit"]),
   ("APIGateway2", ["route_request", "validate_auth", "rate_limit"]),
   ("LoadBalancer1", ["distribute_load", "health_check", "route_traffic"]),
   ("LoadBalancer2", ["distribute_load", "health_check", "route_traffic"]),
   ("CacheServer1", ["get_cache", "set_cache", "invalidate_cache"]),
   ("CacheServer2", ["get_cache", "set_cache", "invalidate_cache"]),
   ("Leader", ["send_heartbeat", "replicate_log", "commit_entries"]),
   ("Candidate1", ["request_votes", "increment_term", "check_majority"]),
   ("Candidate2", ["request_votes", "increment_term", "check_majority"]),
   ("Follower1", ["append_entries", "vote_response", "apply_commits"]),
   ("Follower2", ["append_entries", "vote_response", "apply_commits"]),
   ("Follower3", ["append_entries", "vote_response", "apply_commits"]),
   ("DataNode1", ["sync_data", "verify_checksum", "acknowledge_write"]),
   ("DataNode2", ["sync_data", "verify_checksum", "acknowledge_write"]),
   ("GameServer", ["update_state", "process_input", "send_update"]),
   ("StreamProc", ["process_stream", "buffer_data", "emit_event"]),
   ("RTAnalytics", ["analyze_realtime", "compute_metric", "alert_threshold"]),
   ("LiveChat", ["send_message", "receive_message", "update_presence"]),
   ("Ticker", ["update_price", "broadcast_tick", "calculate_delta"]),
   ("Monitor", ["check_status", "log_metric", "raise_alert"]),
   ("Alerter", ["check_condition", "send_alert", "escalate_issue"]),
   ("Tracker", ["track_event", "update_counter", "emit_metric"]),
   ("TempSensor", ["read_temperature", "calibrate", "send_reading"]),
   ("HumiditySensor", ["read_humidity", "calibrate", "send_reading"]),
   ("LightSensor", ["read_luminance", "calibrate", "send_reading"]),
   ("MotionSensor", ["detect_motion", "calibrate", "send_alert"]),
   ("SmokeSensor", ["detect_smoke", "test_alarm", "send_alert"]),
   ("DoorSensor", ["check_status", "log_event", "send_notification"]),
   ("PowerMeter", ["read_consumption", "calculate_cost", "send_report"]),
   ("WaterMeter", ["read_flow", "detect_leak", "send_report"]),
   ("CronJob1", ["execute_task", "check_schedule", "log_completion"]),
   ("CronJob2", ["execute_task", "check_schedule", "log_completion"]),
   ("Backup1", ["backup_data", "verify_backup", "rotate_old"]),
   ("Backup2", ["backup_data", "verify_backup", "rotate_old"]),
   ("Cleanup1", ["clean_temp", "remove_logs", "free_space"]),
   ("Cleanup2", ["clean_temp", "remove_logs", "free_space"]),
   ("Reporter1", ["generate_report", "email_report", "archive_report"]),
   ("Reporter2", ["generate_report", "email_report", "archive_report"]),
   ("Primary1", ["process_request", "replicate_state", "heartbeat"]),
   ("Primary2", ["process_request", "replicate_state", "heartbeat"]),
   ("Replica1", ["sync_state", "standby_ready", "promote_primary"]),
   ("Replica2", ["sync_state", "standby_ready", "promote_primary"]),
   ("Standby1", ["monitor_health", "backup_state", "failover_ready"]),
   ("Standby2", ["monitor_health", "backup_state", "failover_ready"]),
   ("Monitor1", ["check_health", "detect_failure", "initiate_recovery"]),
   ("Monitor2", ["check_health", "detect_failure", "initiate_recovery"]),
   ("AutoScaler1", ["monitor_load", "scale_up", "scale_down"]),
   ("AutoScaler2", ["monitor_load", "scale_up", "scale_down"]),
   ("CDN1", ["cache_content", "serve_cached", "invalidate_stale"]),
   ("CDN2", ["cache_content", "serve_cached", "invalidate_stale"]),
   ("Queue1", ["enqueue_message", "dequeue_message", "check_depth"]),
   ("Queue2", ["enqueue_message", "dequeue_message", "check_depth"]),
   ("Worker1", ["process_job", "report_progress", "complete_task"]),
   ("Worker2", ["process_job", "report_progress", "complete_task"])]

/-- `Task`, simulations/emerge/simulation/types.go:63-68. -/
structure FullTask where
  id : String
  agentID : String
  type : String
  payload : String
deriving DecidableEq

/-- `createTask`, simulations/emerge/simulation/agent.go:417-516, of the workload `id` of kind `name` whose counter was `counter`. The list of
types is never empty, so the index is in range. -/
def createFullTask (id name : String) (counter : Nat) : FullTask :=
  let c := counter + 1
  let tasks := (taskTypes.lookup name).getD ["process_request"]
  let taskType := tasks.getD (c % tasks.length) ""
  { id := id ++ "-task-" ++ toString c
    agentID := id
    type := taskType
    payload := name ++ ": " ++ taskType ++ " #" ++ toString c }

/-- How a kind is shown in the list of agents, simulations/display/display.go:1126-1131: its icon and at most eleven bytes of its name. The
names are ASCII, so that bytes are characters; the padding with blanks is left out. -/
def shownKind (k : String × String) : String × String := (k.2, String.ofList (k.1.toList.take 11))

end Verif
