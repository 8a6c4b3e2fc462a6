import Verif.Source.Lang

/-!
# `sml/src/sml_transport.c`

Written by `tools/c2lean.py`.
-/

namespace Sml.C

/-- `esc_seq` (sml/src/sml_transport.c:31). -/
def esc_seq : List Int := [
  27, 27, 27, 27]

/-- `start_seq` (sml/src/sml_transport.c:32). -/
def start_seq : List Int := [
  27, 27, 27, 27, 1, 1, 1, 1]

/-- `end_seq` (sml/src/sml_transport.c:33). -/
def end_seq : List Int := [
  27, 27, 27, 27, 26]

/-- `sml_read` (sml/src/sml_transport.c:35-57).
```
size_t sml_read(int fd, fd_set *set, unsigned char *buffer, size_t len) {

  ssize_t r = 0;
  size_t tr = 0;

  while (tr < len) {
    select(fd + 1, set, 0, 0, 0);
    if (FD_ISSET(fd, set)) {

      r = read(fd, &(buffer[tr]), len - tr);
      if (r == 0)
        return 0; // EOF
      if (r < 0) {
        if (errno == EINTR || errno == EAGAIN)
          continue; // should be ignored
        fprintf(stderr, "libsml: sml_read(): read error\n");
        return 0;
      }
      tr += r;
    }
  }
  return tr;
}
```
Variables: 0 `fd`, 1 `set`, 2 `buffer`, 3 `len`, 4 `r`, 5 `tr`. -/
def sml_read : FunDef where
  params := [some .i32, none, none, some .u64]
  res := some .u64
  body := [
    .set .i64 4 (.lit .i32 0),
    .set .u64 5 (.lit .i32 0),
    .loop (.bin .lt (.var 5) (.var 3)) [
      .select (.bin .add (.var 0) (.lit .i32 1)) (.var 1),
      .ite (.fdHas (.var 0) (.var 1)) [
        .set .i64 4 (.read (.var 0) (.addr (.var 2) (.var 5)) (.bin .sub (.var 3) (.var 5))),
        .ite (.bin .eq (.var 4) (.lit .i32 0)) [
          .ret (.lit .i32 0)] [],
        .ite (.bin .lt (.var 4) (.lit .i32 0)) [
          .ite (.or (.bin .eq .errno (.lit .i32 4)) (.bin .eq .errno (.lit .i32 11))) [
            .cont] [],
          .print [],
          .ret (.lit .i32 0)] [],
        .set .u64 5 (.bin .add (.var 5) (.var 4))] []] [],
    .ret (.var 5)]

/-- `sml_transport_read` (sml/src/sml_transport.c:59-115).
```
size_t sml_transport_read(int fd, unsigned char *buffer, size_t max_len) {

  fd_set readfds;
  FD_ZERO(&readfds);
  FD_SET(fd, &readfds);

  unsigned char buf[max_len];
  memset(buf, 0, max_len);
  unsigned int len = 0;

  if (max_len < 8) {
    // prevent buffer overflow
    fprintf(stderr, "libsml: error: sml_transport_read(): passed buffer too small!\n");
    return 0;
  }

  while (len < 8) {
    if (sml_read(fd, &readfds, &(buf[len]), 1) == 0) {
      return 0;
    }

    if ((buf[len] == 0x1b && len < 4) || (buf[len] == 0x01 && len >= 4)) {
      len++;
    } else {
      len = 0;
    }
  }

  // found start sequence
  while ((len + 8) < max_len) {
    if (sml_read(fd, &readfds, &(buf[len]), 4) == 0) {
      return 0;
    }

    if (memcmp(&buf[len], esc_seq, 4) == 0) {
      // found esc sequence
      len += 4;
      if (sml_read(fd, &readfds, &(buf[len]), 4) == 0) {
        return 0;
      }

      if (buf[len] == 0x1a) {
        // found end sequence
        len += 4;
        memcpy(buffer, &(buf[0]), len);
        return len;
      } else {
        // don't read other escaped sequences yet
        fprintf(stderr, "libsml: error: unrecognized sequence\n");
        return 0;
      }
    }
    len += 4;
  }

  return 0;
}
```
Variables: 0 `fd`, 1 `buffer`, 2 `max_len`, 3 `readfds`, 4 `buf`, 5 `len`. -/
def sml_transport_read : FunDef where
  params := [some .i32, none, some .u64]
  res := some .u64
  body := [
    .fdVar 3,
    .fdZero (.var 3),
    .fdAdd (.var 0) (.var 3),
    .bytes 4 (.var 2),
    .memset (.var 4) (.lit .i32 0) (.var 2),
    .set .u32 5 (.lit .i32 0),
    .ite (.bin .lt (.var 2) (.lit .i32 8)) [
      .print [],
      .ret (.lit .i32 0)] [],
    .loop (.bin .lt (.var 5) (.lit .i32 8)) [
      .ite (.bin .eq (.call .sml_read [.var 0, .var 3, .addr (.var 4) (.var 5), .lit .i32 1]) (.lit .i32 0)) [
        .ret (.lit .i32 0)] [],
      .ite (.or (.and (.bin .eq (.byte .u8 (.var 4) (.var 5)) (.lit .i32 27)) (.bin .lt (.var 5) (.lit .i32 4))) (.and (.bin .eq (.byte .u8 (.var 4) (.var 5)) (.lit .i32 1)) (.bin .ge (.var 5) (.lit .i32 4)))) [
        .set .u32 5 (.bin .add (.var 5) (.lit .i32 1))] [
        .set .u32 5 (.lit .i32 0)]] [],
    .loop (.bin .lt (.bin .add (.var 5) (.lit .i32 8)) (.var 2)) [
      .ite (.bin .eq (.call .sml_read [.var 0, .var 3, .addr (.var 4) (.var 5), .lit .i32 4]) (.lit .i32 0)) [
        .ret (.lit .i32 0)] [],
      .ite (.bin .eq (.memcmpTab (.addr (.var 4) (.var 5)) esc_seq (.lit .i32 4)) (.lit .i32 0)) [
        .set .u32 5 (.bin .add (.var 5) (.lit .i32 4)),
        .ite (.bin .eq (.call .sml_read [.var 0, .var 3, .addr (.var 4) (.var 5), .lit .i32 4]) (.lit .i32 0)) [
          .ret (.lit .i32 0)] [],
        .ite (.bin .eq (.byte .u8 (.var 4) (.var 5)) (.lit .i32 26)) [
          .set .u32 5 (.bin .add (.var 5) (.lit .i32 4)),
          .memcpy (.var 1) (.addr (.var 4) (.lit .i32 0)) (.var 5),
          .ret (.var 5)] [
          .print [],
          .ret (.lit .i32 0)]] [],
      .set .u32 5 (.bin .add (.var 5) (.lit .i32 4))] [],
    .ret (.lit .i32 0)]

/-- `sml_transport_listen` (sml/src/sml_transport.c:117-125).
```
void sml_transport_listen(int fd, void (*sml_transport_receiver)(unsigned char *buffer,
                                 size_t buffer_len)) {
  unsigned char buffer[MC_SML_BUFFER_LEN];
  size_t bytes;

  while ((bytes = sml_transport_read(fd, buffer, MC_SML_BUFFER_LEN)) > 0) {
    sml_transport_receiver(buffer, bytes);
  }
}
```
Variables: 0 `fd`, 1 `sml_transport_receiver`, 2 `buffer`, 3 `bytes`. -/
def sml_transport_listen : FunDef where
  params := [some .i32, none]
  res := none
  body := [
    .bytes 2 (.lit .i32 8096),
    .loop (.bin .gt (.assign .u64 3 (.call .sml_transport_read [.var 0, .var 2, .lit .i32 8096])) (.lit .i32 0)) [
      .expr (.callPtr (.var 1) [.var 2, .var 3])] []]

/-- `sml_transport_write` (sml/src/sml_transport.c:127-164).
```
int sml_transport_write(int fd, sml_file *file) {
  sml_buffer *buf = file->buf;
  buf->cursor = 0;

  // add start sequence
  memcpy(sml_buf_get_current_buf(buf), start_seq, 8);
  buf->cursor += 8;

  // add file
  sml_file_write(file);

  // add padding bytes
  int padding = (buf->cursor % 4) ? (4 - buf->cursor % 4) : 0;
  if (padding) {
    // write zeroed bytes
    memset(sml_buf_get_current_buf(buf), 0, padding);
    buf->cursor += padding;
  }

  // begin end sequence
  memcpy(sml_buf_get_current_buf(buf), end_seq, 5);
  buf->cursor += 5;

  // add padding info
  buf->buffer[buf->cursor++] = (unsigned char)padding;

  // add crc checksum
  u16 crc = sml_crc16_calculate(buf->buffer, buf->cursor);
  buf->buffer[buf->cursor++] = (unsigned char)((crc & 0xFF00) >> 8);
  buf->buffer[buf->cursor++] = (unsigned char)(crc & 0x00FF);

  size_t wr = write(fd, buf->buffer, buf->cursor);
  if (wr == buf->cursor) {
    return wr;
  }

  return 0;
}
```
Variables: 0 `fd`, 1 `file`, 2 `buf`, 3 `padding`, 4 `crc`, 5 `wr`. -/
def sml_transport_write : FunDef where
  params := [some .i32, none]
  res := some .i32
  body := [
    .setPtr 2 (.ldPtr (.var 1) 1),
    .stInt .u64 (.var 2) 1 (.lit .i32 0),
    .memcpyTab (.call .sml_buf_get_current_buf [.var 2]) start_seq (.lit .i32 8),
    .stInt .u64 (.var 2) 1 (.bin .add (.ldInt .u64 (.var 2) 1) (.lit .i32 8)),
    .expr (.call .sml_file_write [.var 1]),
    .set .i32 3 (.cond (.bin .mod (.ldInt .u64 (.var 2) 1) (.lit .i32 4)) (.bin .sub (.lit .i32 4) (.bin .mod (.ldInt .u64 (.var 2) 1) (.lit .i32 4))) (.lit .i32 0)),
    .ite (.var 3) [
      .memset (.call .sml_buf_get_current_buf [.var 2]) (.lit .i32 0) (.var 3),
      .stInt .u64 (.var 2) 1 (.bin .add (.ldInt .u64 (.var 2) 1) (.var 3))] [],
    .memcpyTab (.call .sml_buf_get_current_buf [.var 2]) end_seq (.lit .i32 5),
    .stInt .u64 (.var 2) 1 (.bin .add (.ldInt .u64 (.var 2) 1) (.lit .i32 5)),
    .stByte .u8 (.ldPtr (.var 2) 0) (.incMem .u64 (.var 2) 1) (.cast .u8 (.var 3)),
    .set .u16 4 (.call .sml_crc16_calculate [.ldPtr (.var 2) 0, .ldInt .u64 (.var 2) 1]),
    .stByte .u8 (.ldPtr (.var 2) 0) (.incMem .u64 (.var 2) 1) (.cast .u8 (.bin .shr (.bin .band (.var 4) (.lit .i32 65280)) (.lit .i32 8))),
    .stByte .u8 (.ldPtr (.var 2) 0) (.incMem .u64 (.var 2) 1) (.cast .u8 (.bin .band (.var 4) (.lit .i32 255))),
    .set .u64 5 (.write (.var 0) (.ldPtr (.var 2) 0) (.ldInt .u64 (.var 2) 1)),
    .ite (.bin .eq (.var 5) (.ldInt .u64 (.var 2) 1)) [
      .ret (.var 5)] [],
    .ret (.lit .i32 0)]

end Sml.C
