import Verif.Basic

/-!
# Declared enumerations (specification of the name tables)
Generated from include/he.h:68-312: numeric value and identifier of every enumerator.
-/

namespace Lightway.Spec

/-- `enum he_return_code` of include/he.h -/
def rcDecl : List (Int × String) :=
  [(0, "HE_SUCCESS"), (-1, "HE_ERR_STRING_TOO_LONG"), (-2, "HE_ERR_EMPTY_STRING"),
   (-3, "HE_ERR_INVALID_CONN_STATE"), (-4, "HE_ERR_NULL_POINTER"), (-5, "HE_ERR_EMPTY_PACKET"),
   (-6, "HE_ERR_PACKET_TOO_SMALL"), (-7, "HE_ERR_ZERO_SIZE"), (-8, "HE_ERR_NEGATIVE_NUMBER"),
   (-9, "HE_ERR_INIT_FAILED"), (-10, "HE_ERR_NO_MEMORY"), (-11, "HE_ERR_NOT_HE_PACKET"),
   (-12, "HE_ERR_SSL_BAD_FILETYPE"), (-13, "HE_ERR_SSL_BAD_FILE"),
   (-14, "HE_ERR_SSL_OUT_OF_MEMORY"), (-15, "HE_ERR_SSL_ASN_INPUT"), (-16, "HE_ERR_SSL_BUFFER"),
   (-17, "HE_ERR_SSL_CERT"), (-18, "HE_ERR_SSL_ERROR"), (-19, "HE_ERR_CONF_USERNAME_NOT_SET"),
   (-20, "HE_ERR_CONF_PASSWORD_NOT_SET"), (-21, "HE_ERR_CONF_CA_NOT_SET"),
   (-22, "HE_ERR_CONF_MTU_NOT_SET"), (-23, "HE_WANT_READ"), (-24, "HE_WANT_WRITE"),
   (-25, "HE_ERR_CONF_OUTSIDE_WRITE_CB_NOT_SET"), (-26, "HE_ERR_CONNECT_FAILED"),
   (-27, "HE_CONNECTION_TIMED_OUT"), (-28, "HE_ERR_NOT_CONNECTED"),
   (-29, "HE_ERR_UNSUPPORTED_PACKET_TYPE"), (-30, "HE_ERR_CONNECTION_WAS_CLOSED"),
   (-31, "HE_ERR_BAD_PACKET"), (-32, "HE_ERR_CALLBACK_FAILED"), (-33, "HE_ERR_FAILED"),
   (-34, "HE_ERR_SERVER_DN_MISMATCH"), (-35, "HE_ERR_CANNOT_VERIFY_SERVER_CERT"),
   (-36, "HE_ERR_NEVER_CONNECTED"), (-37, "HE_ERR_INVALID_MTU_SIZE"),
   (-38, "HE_ERR_CLEANUP_FAILED"), (-39, "HE_ERR_REJECTED_SESSION"),
   (-40, "HE_ERR_ACCESS_DENIED"), (-41, "HE_ERR_PACKET_TOO_LARGE"),
   (-42, "HE_ERR_INACTIVITY_TIMEOUT"), (-43, "HE_ERR_POINTER_WOULD_OVERFLOW"),
   (-46, "HE_ERR_INVALID_CONNECTION_TYPE"), (-47, "HE_ERR_RNG_FAILURE"),
   (-48, "HE_ERR_CONF_AUTH_CB_NOT_SET"), (-49, "HE_ERR_PLUGIN_DROP"),
   (-50, "HE_ERR_UNKNOWN_SESSION"), (-51, "HE_ERR_SSL_ERROR_NONFATAL"),
   (-52, "HE_ERR_INCORRECT_PROTOCOL_VERSION"), (-53, "HE_ERR_CONF_CONFLICTING_AUTH_METHODS"),
   (-54, "HE_ERR_ACCESS_DENIED_NO_AUTH_BUF_HANDLER"),
   (-55, "HE_ERR_ACCESS_DENIED_NO_AUTH_USERPASS_HANDLER"), (-56, "HE_ERR_SERVER_GOODBYE"),
   (-57, "HE_ERR_INVALID_AUTH_TYPE"), (-58, "HE_ERR_ACCESS_DENIED_NO_AUTH_TOKEN_HANDLER"),
   (-59, "HE_ERR_PMTUD_CALLBACKS_NOT_SET"), (-60, "HE_ERR_BAD_FRAGMENT"),
   (-61, "HE_ERR_SECURE_RENEGOTIATION_ERROR"), (-62, "HE_ERR_CANNOT_ENABLE_CH_FRAG")]

/-- `enum he_conn_state` of include/he.h -/
def connStateDecl : List (Int × String) :=
  [(0, "HE_STATE_NONE"), (1, "HE_STATE_DISCONNECTED"), (2, "HE_STATE_CONNECTING"),
   (4, "HE_STATE_DISCONNECTING"), (5, "HE_STATE_AUTHENTICATING"), (6, "HE_STATE_LINK_UP"),
   (7, "HE_STATE_ONLINE"), (8, "HE_STATE_CONFIGURING")]

/-- `enum he_conn_event` of include/he.h -/
def eventDecl : List (Int × String) :=
  [(1, "HE_EVENT_FIRST_MESSAGE_RECEIVED"), (2, "HE_EVENT_PONG"),
   (3, "HE_EVENT_REJECTED_FRAGMENTED_PACKETS_SENT_BY_HOST"),
   (4, "HE_EVENT_SECURE_RENEGOTIATION_STARTED"), (5, "HE_EVENT_SECURE_RENEGOTIATION_COMPLETED"),
   (6, "HE_EVENT_PENDING_SESSION_ACKNOWLEDGED")]

/-- `enum he_connection_protocol` of include/he.h -/
def protocolDecl : List (Int × String) :=
  [(0, "HE_CONNECTION_PROTOCOL_NONE"), (1, "HE_CONNECTION_PROTOCOL_TLS_1_3"),
   (2, "HE_CONNECTION_PROTOCOL_DTLS_1_2"), (3, "HE_CONNECTION_PROTOCOL_DTLS_1_3")]

/-- `enum he_pmtud_state` of include/he.h -/
def pmtudStateDecl : List (Int × String) :=
  [(0, "HE_PMTUD_STATE_DISABLED"), (1, "HE_PMTUD_STATE_BASE"), (2, "HE_PMTUD_STATE_SEARCHING"),
   (3, "HE_PMTUD_STATE_SEARCH_COMPLETE"), (4, "HE_PMTUD_STATE_ERROR")]

end Lightway.Spec
