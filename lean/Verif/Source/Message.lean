import Verif.Source.Lang

/-!
# `sml/src/sml_message.c`

Written by `tools/c2lean.py`.
-/

namespace Sml.C

/-- `sml_message_parse` (sml/src/sml_message.c:32-105).
```
sml_message *sml_message_parse(sml_buffer *buf) {
  sml_message *msg = (sml_message *)malloc(sizeof(sml_message));
  *msg = (sml_message){.transaction_id = NULL,
             .group_id = NULL,
             .abort_on_error = NULL,
             .message_body = NULL,
             .crc = NULL};
  int msg_start = buf->cursor;
  int len;

  if (sml_buf_get_next_type(buf) != SML_TYPE_LIST) {
    buf->error = 1;
    goto error;
  }

  if (sml_buf_get_next_length(buf) != 6) {
    buf->error = 1;
    goto error;
  }

  msg->transaction_id = sml_octet_string_parse(buf);
  if (sml_buf_has_errors(buf))
    goto error;

  msg->group_id = sml_u8_parse(buf);
  if (sml_buf_has_errors(buf))
    goto error;

  msg->abort_on_error = sml_u8_parse(buf);
  if (sml_buf_has_errors(buf))
    goto error;

  msg->message_body = sml_message_body_parse(buf);
  if (sml_buf_has_errors(buf))
    goto error;

  len = buf->cursor - msg_start;
  if ((buf->buffer_len - buf->cursor) < 3) {
    // libFuzzer ASAN found read out of bound.
    // at least the 2 bytes for the crc and 1 for the sml_message_end there?
    buf->error = 1;
    goto error;
  }

  msg->crc = sml_u16_parse(buf);
  if (sml_buf_has_errors(buf) || !(msg->crc)) {
    buf->error = 1;
    goto error;
  }

  if (
    *msg->crc != sml_crc16_calculate(&(buf->buffer[msg_start]), len) &&
    // Workaround for Holley DTZ541 uses CRC-16/Kermit
    *msg->crc != sml_crc16kermit_calculate(&(buf->buffer[msg_start]), len)
  ){
    fprintf(stderr, "libsml: sml_message_parse(): crc mismatch, dropping message\n");
    goto error;
  }

  if (buf->cursor >= buf->buffer_len) {
    buf->error = 1;
    goto error;
  }

  if (sml_buf_get_current_byte(buf) == SML_MESSAGE_END) {
    sml_buf_update_bytes_read(buf, 1);
  }

  return msg;

error:
  sml_message_free(msg);
  return NULL;
}
```
Variables: 0 `buf`, 1 `msg`, 2 `msg_start`, 3 `len`. Labels: 0 `error`. -/
def sml_message_parse : FunDef where
  params := [none]
  res := none
  body := [
    .setPtr 1 (.mallocRec 5 0),
    .stRec (.var 1) [.null, .null, .null, .null, .null] [],
    .set .i32 2 (.ldInt .u64 (.var 0) 1),
    .ite (.bin .ne (.call .sml_buf_get_next_type [.var 0]) (.lit .i32 112)) [
      .stInt .i32 (.var 0) 2 (.lit .i32 1),
      .goto 0] [],
    .ite (.bin .ne (.call .sml_buf_get_next_length [.var 0]) (.lit .i32 6)) [
      .stInt .i32 (.var 0) 2 (.lit .i32 1),
      .goto 0] [],
    .stPtr (.var 1) 0 (.call .sml_octet_string_parse [.var 0]),
    .ite (.call .sml_buf_has_errors [.var 0]) [
      .goto 0] [],
    .stPtr (.var 1) 1 (.call .sml_number_parse [.var 0, .lit .i32 96, .lit .u64 1]),
    .ite (.call .sml_buf_has_errors [.var 0]) [
      .goto 0] [],
    .stPtr (.var 1) 2 (.call .sml_number_parse [.var 0, .lit .i32 96, .lit .u64 1]),
    .ite (.call .sml_buf_has_errors [.var 0]) [
      .goto 0] [],
    .stPtr (.var 1) 3 (.call .sml_message_body_parse [.var 0]),
    .ite (.call .sml_buf_has_errors [.var 0]) [
      .goto 0] [],
    .set .i32 3 (.bin .sub (.ldInt .u64 (.var 0) 1) (.var 2)),
    .ite (.bin .lt (.bin .sub (.ldInt .u64 (.var 0) 0) (.ldInt .u64 (.var 0) 1)) (.lit .i32 3)) [
      .stInt .i32 (.var 0) 2 (.lit .i32 1),
      .goto 0] [],
    .stPtr (.var 1) 4 (.call .sml_number_parse [.var 0, .lit .i32 96, .lit .u64 2]),
    .ite (.or (.call .sml_buf_has_errors [.var 0]) (.not (.ldPtr (.var 1) 4))) [
      .stInt .i32 (.var 0) 2 (.lit .i32 1),
      .goto 0] [],
    .ite (.and (.bin .ne (.deref .u16 (.ldPtr (.var 1) 4)) (.call .sml_crc16_calculate [.addr (.ldPtr (.var 0) 0) (.var 2), .var 3])) (.bin .ne (.deref .u16 (.ldPtr (.var 1) 4)) (.call .sml_crc16kermit_calculate [.addr (.ldPtr (.var 0) 0) (.var 2), .var 3]))) [
      .print [],
      .goto 0] [],
    .ite (.bin .ge (.ldInt .u64 (.var 0) 1) (.ldInt .u64 (.var 0) 0)) [
      .stInt .i32 (.var 0) 2 (.lit .i32 1),
      .goto 0] [],
    .ite (.bin .eq (.call .sml_buf_get_current_byte [.var 0]) (.lit .i32 0)) [
      .expr (.call .sml_buf_update_bytes_read [.var 0, .lit .i32 1])] [],
    .ret (.var 1),
    .label 0,
    .expr (.call .sml_message_free [.var 1]),
    .ret .null]

/-- `sml_message_init` (sml/src/sml_message.c:107-116).
```
sml_message *sml_message_init() {
  sml_message *msg = (sml_message *)malloc(sizeof(sml_message));
  *msg = (sml_message){.transaction_id = NULL,
             .group_id = NULL,
             .abort_on_error = NULL,
             .message_body = NULL,
             .crc = NULL};
  msg->transaction_id = sml_octet_string_generate_uuid();
  return msg;
}
```
Variables: 0 `msg`. -/
def sml_message_init : FunDef where
  params := []
  res := none
  body := [
    .setPtr 0 (.mallocRec 5 0),
    .stRec (.var 0) [.null, .null, .null, .null, .null] [],
    .stPtr (.var 0) 0 (.call .sml_octet_string_generate_uuid []),
    .ret (.var 0)]

/-- `sml_message_free` (sml/src/sml_message.c:118-127).
```
void sml_message_free(sml_message *msg) {
  if (msg) {
    sml_octet_string_free(msg->transaction_id);
    sml_number_free(msg->group_id);
    sml_number_free(msg->abort_on_error);
    sml_message_body_free(msg->message_body);
    sml_number_free(msg->crc);
    free(msg);
  }
}
```
Variables: 0 `msg`. -/
def sml_message_free : FunDef where
  params := [none]
  res := none
  body := [
    .ite (.var 0) [
      .expr (.call .sml_octet_string_free [.ldPtr (.var 0) 0]),
      .expr (.call .sml_number_free [.ldPtr (.var 0) 1]),
      .expr (.call .sml_number_free [.ldPtr (.var 0) 2]),
      .expr (.call .sml_message_body_free [.ldPtr (.var 0) 3]),
      .expr (.call .sml_number_free [.ldPtr (.var 0) 4]),
      .free (.var 0)] []]

/-- `sml_message_write` (sml/src/sml_message.c:129-145).
```
void sml_message_write(sml_message *msg, sml_buffer *buf) {
  int msg_start = buf->cursor;

  sml_buf_set_type_and_length(buf, SML_TYPE_LIST, 6);
  sml_octet_string_write(msg->transaction_id, buf);
  sml_u8_write(msg->group_id, buf);
  sml_u8_write(msg->abort_on_error, buf);
  sml_message_body_write(msg->message_body, buf);

  msg->crc =
    sml_u16_init(sml_crc16_calculate(&(buf->buffer[msg_start]), buf->cursor - msg_start));
  sml_u16_write(msg->crc, buf);

  // end of message
  buf->buffer[buf->cursor] = 0x0;
  buf->cursor++;
}
```
Variables: 0 `msg`, 1 `buf`, 2 `msg_start`. -/
def sml_message_write : FunDef where
  params := [none, none]
  res := none
  body := [
    .set .i32 2 (.ldInt .u64 (.var 1) 1),
    .expr (.call .sml_buf_set_type_and_length [.var 1, .lit .i32 112, .lit .i32 6]),
    .expr (.call .sml_octet_string_write [.ldPtr (.var 0) 0, .var 1]),
    .expr (.call .sml_number_write [.ldPtr (.var 0) 1, .lit .i32 96, .lit .u64 1, .var 1]),
    .expr (.call .sml_number_write [.ldPtr (.var 0) 2, .lit .i32 96, .lit .u64 1, .var 1]),
    .expr (.call .sml_message_body_write [.ldPtr (.var 0) 3, .var 1]),
    .stPtr (.var 0) 4 (.call .sml_number_init [.call .sml_crc16_calculate [.addr (.ldPtr (.var 1) 0) (.var 2), .bin .sub (.ldInt .u64 (.var 1) 1) (.var 2)], .lit .i32 96, .lit .u64 2]),
    .expr (.call .sml_number_write [.ldPtr (.var 0) 4, .lit .i32 96, .lit .u64 2, .var 1]),
    .stByte .u8 (.ldPtr (.var 1) 0) (.ldInt .u64 (.var 1) 1) (.lit .i32 0),
    .stInt .u64 (.var 1) 1 (.bin .add (.ldInt .u64 (.var 1) 1) (.lit .i32 1))]

/-- `sml_message_body_parse` (sml/src/sml_message.c:149-225).
```
sml_message_body *sml_message_body_parse(sml_buffer *buf) {
  sml_message_body *msg_body = (sml_message_body *)malloc(sizeof(sml_message_body));
  *msg_body = (sml_message_body){.tag = NULL, .data = NULL};

  if ((buf->cursor + 1) > buf->buffer_len) {
    buf->error = 1;
    goto error;
  }

  if (sml_buf_get_next_type(buf) != SML_TYPE_LIST) {
    buf->error = 1;
    goto error;
  }

  if (sml_buf_get_next_length(buf) != 2) {
    buf->error = 1;
    goto error;
  }

  msg_body->tag = sml_u32_parse(buf);
  if (sml_buf_has_errors(buf) || msg_body->tag == NULL)
    goto error;

  switch (*(msg_body->tag)) {
  case SML_MESSAGE_OPEN_REQUEST:
    msg_body->data = sml_open_request_parse(buf);
    break;
  case SML_MESSAGE_OPEN_RESPONSE:
    msg_body->data = sml_open_response_parse(buf);
    break;
  case SML_MESSAGE_CLOSE_REQUEST:
    msg_body->data = sml_close_request_parse(buf);
    break;
  case SML_MESSAGE_CLOSE_RESPONSE:
    msg_body->data = sml_close_response_parse(buf);
    break;
  case SML_MESSAGE_GET_PROFILE_PACK_REQUEST:
    msg_body->data = sml_get_profile_pack_request_parse(buf);
    break;
  case SML_MESSAGE_GET_PROFILE_PACK_RESPONSE:
    msg_body->data = sml_get_profile_pack_response_parse(buf);
    break;
  case SML_MESSAGE_GET_PROFILE_LIST_REQUEST:
    msg_body->data = sml_get_profile_list_request_parse(buf);
    break;
  case SML_MESSAGE_GET_PROFILE_LIST_RESPONSE:
    msg_body->data = sml_get_profile_list_response_parse(buf);
    break;
  case SML_MESSAGE_GET_PROC_PARAMETER_REQUEST:
    msg_body->data = sml_get_proc_parameter_request_parse(buf);
    break;
  case SML_MESSAGE_GET_PROC_PARAMETER_RESPONSE:
    msg_body->data = sml_get_proc_parameter_response_parse(buf);
    break;
  case SML_MESSAGE_SET_PROC_PARAMETER_REQUEST:
    msg_body->data = sml_set_proc_parameter_request_parse(buf);
    break;
  case SML_MESSAGE_GET_LIST_REQUEST:
    msg_body->data = sml_get_list_request_parse(buf);
    break;
  case SML_MESSAGE_GET_LIST_RESPONSE:
    msg_body->data = sml_get_list_response_parse(buf);
    break;
  case SML_MESSAGE_ATTENTION_RESPONSE:
    msg_body->data = sml_attention_response_parse(buf);
    break;
  default:
    fprintf(stderr, "libsml: error: message type %04X not yet implemented\n", *(msg_body->tag));
    break;
  }

  return msg_body;

error:
  free(msg_body);
  return NULL;
}
```
Variables: 0 `buf`, 1 `msg_body`. Labels: 0 `error`. -/
def sml_message_body_parse : FunDef where
  params := [none]
  res := none
  body := [
    .setPtr 1 (.mallocRec 2 0),
    .stRec (.var 1) [.null, .null] [],
    .ite (.bin .gt (.bin .add (.ldInt .u64 (.var 0) 1) (.lit .i32 1)) (.ldInt .u64 (.var 0) 0)) [
      .stInt .i32 (.var 0) 2 (.lit .i32 1),
      .goto 0] [],
    .ite (.bin .ne (.call .sml_buf_get_next_type [.var 0]) (.lit .i32 112)) [
      .stInt .i32 (.var 0) 2 (.lit .i32 1),
      .goto 0] [],
    .ite (.bin .ne (.call .sml_buf_get_next_length [.var 0]) (.lit .i32 2)) [
      .stInt .i32 (.var 0) 2 (.lit .i32 1),
      .goto 0] [],
    .stPtr (.var 1) 0 (.call .sml_number_parse [.var 0, .lit .i32 96, .lit .u64 4]),
    .ite (.or (.call .sml_buf_has_errors [.var 0]) (.bin .eq (.ldPtr (.var 1) 0) .null)) [
      .goto 0] [],
    .switch (.deref .u32 (.ldPtr (.var 1) 0)) [
      .case 256,
      .stPtr (.var 1) 1 (.call .sml_open_request_parse [.var 0]),
      .brk,
      .case 257,
      .stPtr (.var 1) 1 (.call .sml_open_response_parse [.var 0]),
      .brk,
      .case 512,
      .stPtr (.var 1) 1 (.call .sml_close_request_parse [.var 0]),
      .brk,
      .case 513,
      .stPtr (.var 1) 1 (.call .sml_close_response_parse [.var 0]),
      .brk,
      .case 768,
      .stPtr (.var 1) 1 (.call .sml_get_profile_pack_request_parse [.var 0]),
      .brk,
      .case 769,
      .stPtr (.var 1) 1 (.call .sml_get_profile_pack_response_parse [.var 0]),
      .brk,
      .case 1024,
      .stPtr (.var 1) 1 (.call .sml_get_profile_pack_request_parse [.var 0]),
      .brk,
      .case 1025,
      .stPtr (.var 1) 1 (.call .sml_get_profile_list_response_parse [.var 0]),
      .brk,
      .case 1280,
      .stPtr (.var 1) 1 (.call .sml_get_proc_parameter_request_parse [.var 0]),
      .brk,
      .case 1281,
      .stPtr (.var 1) 1 (.call .sml_get_proc_parameter_response_parse [.var 0]),
      .brk,
      .case 1536,
      .stPtr (.var 1) 1 (.call .sml_set_proc_parameter_request_parse [.var 0]),
      .brk,
      .case 1792,
      .stPtr (.var 1) 1 (.call .sml_get_list_request_parse [.var 0]),
      .brk,
      .case 1793,
      .stPtr (.var 1) 1 (.call .sml_get_list_response_parse [.var 0]),
      .brk,
      .case 65281,
      .stPtr (.var 1) 1 (.call .sml_attention_response_parse [.var 0]),
      .brk,
      .dflt,
      .print [.deref .u32 (.ldPtr (.var 1) 0)],
      .brk],
    .ret (.var 1),
    .label 0,
    .free (.var 1),
    .ret .null]

/-- `sml_message_body_init` (sml/src/sml_message.c:227-231).
```
sml_message_body *sml_message_body_init(u32 tag, void *data) {
  sml_message_body *message_body = (sml_message_body *)malloc(sizeof(sml_message_body));
  *message_body = (sml_message_body){.tag = sml_u32_init(tag), .data = data};
  return message_body;
}
```
Variables: 0 `tag`, 1 `data`, 2 `message_body`. -/
def sml_message_body_init : FunDef where
  params := [some .u32, none]
  res := none
  body := [
    .setPtr 2 (.mallocRec 2 0),
    .stRec (.var 2) [.call .sml_number_init [.var 0, .lit .i32 96, .lit .u64 4], .var 1] [],
    .ret (.var 2)]

/-- `sml_message_body_write` (sml/src/sml_message.c:233-290).
```
void sml_message_body_write(sml_message_body *message_body, sml_buffer *buf) {
  sml_buf_set_type_and_length(buf, SML_TYPE_LIST, 2);
  sml_u32_write(message_body->tag, buf);

  switch (*(message_body->tag)) {
  case SML_MESSAGE_OPEN_REQUEST:
    sml_open_request_write((sml_open_request *)message_body->data, buf);
    break;
  case SML_MESSAGE_OPEN_RESPONSE:
    sml_open_response_write((sml_open_response *)message_body->data, buf);
    break;
  case SML_MESSAGE_CLOSE_REQUEST:
    sml_close_request_write((sml_close_request *)message_body->data, buf);
    break;
  case SML_MESSAGE_CLOSE_RESPONSE:
    sml_close_response_write((sml_close_response *)message_body->data, buf);
    break;
  case SML_MESSAGE_GET_PROFILE_PACK_REQUEST:
    sml_get_profile_pack_request_write((sml_get_profile_pack_request *)message_body->data, buf);
    break;
  case SML_MESSAGE_GET_PROFILE_PACK_RESPONSE:
    sml_get_profile_pack_response_write((sml_get_profile_pack_response *)message_body->data,
                      buf);
    break;
  case SML_MESSAGE_GET_PROFILE_LIST_REQUEST:
    sml_get_profile_list_request_write((sml_get_profile_list_request *)message_body->data, buf);
    break;
  case SML_MESSAGE_GET_PROFILE_LIST_RESPONSE:
    sml_get_profile_list_response_write((sml_get_profile_list_response *)message_body->data,
                      buf);
    break;
  case SML_MESSAGE_GET_PROC_PARAMETER_REQUEST:
    sml_get_proc_parameter_request_write((sml_get_proc_parameter_request *)message_body->data,
                       buf);
    break;
  case SML_MESSAGE_GET_PROC_PARAMETER_RESPONSE:
    sml_get_proc_parameter_response_write((sml_get_proc_parameter_response *)message_body->data,
                        buf);
    break;
  case SML_MESSAGE_SET_PROC_PARAMETER_REQUEST:
    sml_set_proc_parameter_request_write((sml_set_proc_parameter_request *)message_body->data,
                       buf);
    break;
  case SML_MESSAGE_GET_LIST_REQUEST:
    sml_get_list_request_write((sml_get_list_request *)message_body->data, buf);
    break;
  case SML_MESSAGE_GET_LIST_RESPONSE:
    sml_get_list_response_write((sml_get_list_response *)message_body->data, buf);
    break;
  case SML_MESSAGE_ATTENTION_RESPONSE:
    sml_attention_response_write((sml_attention_response *)message_body->data, buf);
    break;
  default:
    fprintf(stderr, "libsml: error: message type %04X not yet implemented\n",
        *(message_body->tag));
    break;
  }
}
```
Variables: 0 `message_body`, 1 `buf`. -/
def sml_message_body_write : FunDef where
  params := [none, none]
  res := none
  body := [
    .expr (.call .sml_buf_set_type_and_length [.var 1, .lit .i32 112, .lit .i32 2]),
    .expr (.call .sml_number_write [.ldPtr (.var 0) 0, .lit .i32 96, .lit .u64 4, .var 1]),
    .switch (.deref .u32 (.ldPtr (.var 0) 0)) [
      .case 256,
      .expr (.call .sml_open_request_write [.ldPtr (.var 0) 1, .var 1]),
      .brk,
      .case 257,
      .expr (.call .sml_open_response_write [.ldPtr (.var 0) 1, .var 1]),
      .brk,
      .case 512,
      .expr (.call .sml_close_request_write [.ldPtr (.var 0) 1, .var 1]),
      .brk,
      .case 513,
      .expr (.call .sml_close_response_write [.ldPtr (.var 0) 1, .var 1]),
      .brk,
      .case 768,
      .expr (.call .sml_get_profile_pack_request_write [.ldPtr (.var 0) 1, .var 1]),
      .brk,
      .case 769,
      .expr (.call .sml_get_profile_pack_response_write [.ldPtr (.var 0) 1, .var 1]),
      .brk,
      .case 1024,
      .expr (.call .sml_get_profile_pack_request_write [.ldPtr (.var 0) 1, .var 1]),
      .brk,
      .case 1025,
      .expr (.call .sml_get_profile_list_response_write [.ldPtr (.var 0) 1, .var 1]),
      .brk,
      .case 1280,
      .expr (.call .sml_get_proc_parameter_request_write [.ldPtr (.var 0) 1, .var 1]),
      .brk,
      .case 1281,
      .expr (.call .sml_get_proc_parameter_response_write [.ldPtr (.var 0) 1, .var 1]),
      .brk,
      .case 1536,
      .expr (.call .sml_set_proc_parameter_request_write [.ldPtr (.var 0) 1, .var 1]),
      .brk,
      .case 1792,
      .expr (.call .sml_get_list_request_write [.ldPtr (.var 0) 1, .var 1]),
      .brk,
      .case 1793,
      .expr (.call .sml_get_list_response_write [.ldPtr (.var 0) 1, .var 1]),
      .brk,
      .case 65281,
      .expr (.call .sml_attention_response_write [.ldPtr (.var 0) 1, .var 1]),
      .brk,
      .dflt,
      .print [.deref .u32 (.ldPtr (.var 0) 0)],
      .brk]]

/-- `sml_message_body_free` (sml/src/sml_message.c:292-348).
```
void sml_message_body_free(sml_message_body *message_body) {
  if (message_body) {
    switch (*(message_body->tag)) {
    case SML_MESSAGE_OPEN_REQUEST:
      sml_open_request_free((sml_open_request *)message_body->data);
      break;
    case SML_MESSAGE_OPEN_RESPONSE:
      sml_open_response_free((sml_open_response *)message_body->data);
      break;
    case SML_MESSAGE_CLOSE_REQUEST:
      sml_close_request_free((sml_close_request *)message_body->data);
      break;
    case SML_MESSAGE_CLOSE_RESPONSE:
      sml_close_response_free((sml_close_response *)message_body->data);
      break;
    case SML_MESSAGE_GET_PROFILE_PACK_REQUEST:
      sml_get_profile_pack_request_free((sml_get_profile_pack_request *)message_body->data);
      break;
    case SML_MESSAGE_GET_PROFILE_PACK_RESPONSE:
      sml_get_profile_pack_response_free((sml_get_profile_pack_response *)message_body->data);
      break;
    case SML_MESSAGE_GET_PROFILE_LIST_REQUEST:
      sml_get_profile_list_request_free((sml_get_profile_list_request *)message_body->data);
      break;
    case SML_MESSAGE_GET_PROFILE_LIST_RESPONSE:
      sml_get_profile_list_response_free((sml_get_profile_list_response *)message_body->data);
      break;
    case SML_MESSAGE_GET_PROC_PARAMETER_REQUEST:
      sml_get_proc_parameter_request_free(
        (sml_get_proc_parameter_request *)message_body->data);
      break;
    case SML_MESSAGE_GET_PROC_PARAMETER_RESPONSE:
      sml_get_proc_parameter_response_free(
        (sml_get_proc_parameter_response *)message_body->data);
      break;
    case SML_MESSAGE_SET_PROC_PARAMETER_REQUEST:
      sml_set_proc_parameter_request_free(
        (sml_set_proc_parameter_request *)message_body->data);
      break;
    case SML_MESSAGE_GET_LIST_REQUEST:
      sml_get_list_request_free((sml_get_list_request *)message_body->data);
      break;
    case SML_MESSAGE_GET_LIST_RESPONSE:
      sml_get_list_response_free((sml_get_list_response *)message_body->data);
      break;
    case SML_MESSAGE_ATTENTION_RESPONSE:
      sml_attention_response_free((sml_attention_response *)message_body->data);
      break;
    default:
      fprintf(stderr, "libsml: NYI: %s for message type %04X\n", __func__,
          *(message_body->tag));
      break;
    }
    sml_number_free(message_body->tag);
    free(message_body);
  }
}
```
Variables: 0 `message_body`. -/
def sml_message_body_free : FunDef where
  params := [none]
  res := none
  body := [
    .ite (.var 0) [
      .switch (.deref .u32 (.ldPtr (.var 0) 0)) [
        .case 256,
        .expr (.call .sml_open_request_free [.ldPtr (.var 0) 1]),
        .brk,
        .case 257,
        .expr (.call .sml_open_response_free [.ldPtr (.var 0) 1]),
        .brk,
        .case 512,
        .expr (.call .sml_close_request_free [.ldPtr (.var 0) 1]),
        .brk,
        .case 513,
        .expr (.call .sml_close_response_free [.ldPtr (.var 0) 1]),
        .brk,
        .case 768,
        .expr (.call .sml_get_profile_pack_request_free [.ldPtr (.var 0) 1]),
        .brk,
        .case 769,
        .expr (.call .sml_get_profile_pack_response_free [.ldPtr (.var 0) 1]),
        .brk,
        .case 1024,
        .expr (.call .sml_get_profile_pack_request_free [.ldPtr (.var 0) 1]),
        .brk,
        .case 1025,
        .expr (.call .sml_get_profile_list_response_free [.ldPtr (.var 0) 1]),
        .brk,
        .case 1280,
        .expr (.call .sml_get_proc_parameter_request_free [.ldPtr (.var 0) 1]),
        .brk,
        .case 1281,
        .expr (.call .sml_get_proc_parameter_response_free [.ldPtr (.var 0) 1]),
        .brk,
        .case 1536,
        .expr (.call .sml_set_proc_parameter_request_free [.ldPtr (.var 0) 1]),
        .brk,
        .case 1792,
        .expr (.call .sml_get_list_request_free [.ldPtr (.var 0) 1]),
        .brk,
        .case 1793,
        .expr (.call .sml_get_list_response_free [.ldPtr (.var 0) 1]),
        .brk,
        .case 65281,
        .expr (.call .sml_attention_response_free [.ldPtr (.var 0) 1]),
        .brk,
        .dflt,
        .print [.deref .u32 (.ldPtr (.var 0) 0)],
        .brk],
      .expr (.call .sml_number_free [.ldPtr (.var 0) 0]),
      .free (.var 0)] []]

end Sml.C
