import Verif.Source.Lang

/-!
# `examples/sml_server.c`

Written by `tools/c2lean.py`.
-/

namespace Sml.C

/-- The members `code` of `dlms_units` (examples/unit.h:34). -/
def dlms_units_code : List Int := [
  1, 2, 3, 4, 5, 6, 7, 8, 9, 10, 11, 12,
  13, 14, 15, 16, 17, 18, 19, 20, 21, 22, 23, 24,
  25, 26, 27, 28, 29, 30, 31, 32, 33, 34, 35, 36,
  37, 38, 39, 40, 41, 42, 43, 44, 45, 46, 47, 48,
  49, 50, 51, 52, 53, 54, 55, 56, 57, 60, 61, 62,
  63, 64, 253, 254, 255, 0]

/-- The members `unit` of `dlms_units` (examples/unit.h:34). -/
def dlms_units_unit : List String := [
  "a", "mo", "wk", "d", "h", "min.", "s", "°", "°C", "currency", "m", "m/s",
  "m³", "m³", "m³/h", "m³/h", "m³/d", "m³/d", "l", "kg", "N", "Nm", "Pa", "bar",
  "J", "J/h", "W", "VA", "var", "Wh", "VAh", "varh", "A", "C", "V", "V/m",
  "F", "Ω", "Ωm²/m", "Wb", "T", "A/m", "H", "Hz", "1/(Wh)", "1/(varh)", "1/(VAh)", "V²h",
  "A²h", "kg/s", "S, mho", "K", "1/(V²h)", "1/(A²h)", "1/m³", "%", "Ah", "Wh/m³", "J/m³", "Mol %",
  "g/m³", "Pa s", "(reserved)", "(other)", "(unitless)", ""]

/-- `dlms_get_unit` (examples/unit.h:106-115).
```
const char * dlms_get_unit(unsigned char code) {
  dlms_unit_t *it = dlms_units;
  do { // linear search
    if (it->code == code) {
      return it->unit;
    }
  } while ((++it)->code);
  
  return NULL; // not found
}
```
Variables: 0 `code`, 1 `it`. -/
def dlms_get_unit : FunDef where
  params := [some .u8]
  res := none
  body := [
    .set .i64 1 (.lit .i32 0),
    .doWhile [
      .ite (.bin .eq (.tab .u8 dlms_units_code (.var 1)) (.var 0)) [
        .ret (.strTab dlms_units_unit (.var 1))] []] (.tab .u8 dlms_units_code (.assign .i64 1 (.bin .add (.var 1) (.lit .i32 1)))),
    .ret .null]

/-- `serial_port_open` (examples/sml_server.c:46-85).
```
int serial_port_open(const char* device) {
  int bits;
  struct termios config;
  memset(&config, 0, sizeof(config));

  if (!strcmp(device, "-"))
    return 0; // read stdin when "-" is given for the device

#ifdef O_NONBLOCK
  int fd = open(device, O_RDWR | O_NOCTTY | O_NONBLOCK);
#else
  int fd = open(device, O_RDWR | O_NOCTTY | O_NDELAY);
#endif
  if (fd < 0) {
    fprintf(stderr, "error: open(%s): %s\n", device, strerror(errno));
    return -1;
  }

  // set RTS
  ioctl(fd, TIOCMGET, &bits);
  bits |= TIOCM_RTS;
  ioctl(fd, TIOCMSET, &bits);

  tcgetattr(fd, &config);

  // set 8-N-1
  config.c_iflag &= ~(IGNBRK | BRKINT | PARMRK | ISTRIP | INLCR | IGNCR
      | ICRNL | IXON);
  config.c_oflag &= ~OPOST;
  config.c_lflag &= ~(ECHO | ECHONL | ICANON | ISIG | IEXTEN);
  config.c_cflag &= ~(CSIZE | PARENB | PARODD | CSTOPB);
  config.c_cflag |= CS8;

  // set speed to 9600 baud
  cfsetispeed(&config, B9600);
  cfsetospeed(&config, B9600);

  tcsetattr(fd, TCSANOW, &config);
  return fd;
}
```
Variables: 0 `device`, 1 `bits`, 2 `config`, 3 `fd`. -/
def serial_port_open : FunDef where
  params := [none]
  res := some .i32
  body := [
    .bytes 1 (.lit .u64 4),
    .fdVar 2,
    .zeroRec (.var 2) 36,
    .ite (.not (.strcmp (.var 0) (.str "-"))) [
      .ret (.lit .i32 0)] [],
    .set .i32 3 (.openFile (.var 0) (.lit .i32 2306)),
    .ite (.bin .lt (.var 3) (.lit .i32 0)) [
      .print [.var 0, .errno],
      .ret (.lit .i32 (-1))] [],
    .modemGet (.var 3) (.var 1),
    .stDeref .i32 (.var 1) (.bin .bor (.deref .i32 (.var 1)) (.lit .i32 4)),
    .modemSet (.var 3) (.var 1),
    .termGet (.var 3) (.var 2),
    .stInt .u32 (.var 2) 0 (.bin .band (.ldInt .u32 (.var 2) 0) (.lit .i32 (-1516))),
    .stInt .u32 (.var 2) 1 (.bin .band (.ldInt .u32 (.var 2) 1) (.lit .i32 (-2))),
    .stInt .u32 (.var 2) 3 (.bin .band (.ldInt .u32 (.var 2) 3) (.lit .i32 (-32844))),
    .stInt .u32 (.var 2) 2 (.bin .band (.ldInt .u32 (.var 2) 2) (.lit .i32 (-881))),
    .stInt .u32 (.var 2) 2 (.bin .bor (.ldInt .u32 (.var 2) 2) (.lit .i32 48)),
    .setSpeed (.var 2) (.lit .i32 13),
    .setSpeed (.var 2) (.lit .i32 13),
    .termSet (.var 3) (.var 2),
    .ret (.var 3)]

/-- `transport_receiver` (examples/sml_server.c:87-154).
```
void transport_receiver(unsigned char *buffer, size_t buffer_len) {
  int i;
  // the buffer contains the whole message, with transport escape sequences.
  // these escape sequences are stripped here.
  sml_file *file = sml_file_parse(buffer + 8, buffer_len - 16);
  // the sml file is parsed now

  // this prints some information about the file
  if (vflag)
    sml_file_print(file);

  // read here some values ...
  if (vflag)
    printf("OBIS data\n");
  for (i = 0; i < file->messages_len; i++) {
    sml_message *message = file->messages[i];
    if (*message->message_body->tag == SML_MESSAGE_GET_LIST_RESPONSE) {
      sml_list *entry;
      sml_get_list_response *body;
      body = (sml_get_list_response *) message->message_body->data;
      for (entry = body->val_list; entry != NULL; entry = entry->next) {
        if (!entry->value) { // do not crash on null value
          fprintf(stderr, "Error in data stream. entry->value should not be NULL. Skipping this.\n");
          continue;
        }
        if (entry->value->type == SML_TYPE_OCTET_STRING) {
          char *str;
          printf("%d-%d:%d.%d.%d*%d#%s#\n",
            entry->obj_name->str[0], entry->obj_name->str[1],
            entry->obj_name->str[2], entry->obj_name->str[3],
            entry->obj_name->str[4], entry->obj_name->str[5],
            sml_value_to_strhex(entry->value, &str, true));
          free(str);
        } else if (entry->value->type == SML_TYPE_BOOLEAN) {
          printf("%d-%d:%d.%d.%d*%d#%s#\n",
            entry->obj_name->str[0], entry->obj_name->str[1],
            entry->obj_name->str[2], entry->obj_name->str[3],
            entry->obj_name->str[4], entry->obj_name->str[5],
            entry->value->data.boolean ? "true" : "false");
        } else if (((entry->value->type & SML_TYPE_FIELD) == SML_TYPE_INTEGER) ||
            ((entry->value->type & SML_TYPE_FIELD) == SML_TYPE_UNSIGNED)) {
          double value = sml_value_to_double(entry->value);
          int scaler = (entry->scaler) ? *entry->scaler : 0;
          int prec = -scaler;
          if (prec < 0)
            prec = 0;
          value = value * pow(10, scaler);
          printf("%d-%d:%d.%d.%d*%d#%.*f#",
            entry->obj_name->str[0], entry->obj_name->str[1],
            entry->obj_name->str[2], entry->obj_name->str[3],
            entry->obj_name->str[4], entry->obj_name->str[5], prec, value);
          const char *unit = NULL;
          if (entry->unit &&  // do not crash on null (unit is optional)
            (unit = dlms_get_unit((unsigned char) *entry->unit)) != NULL)
            printf("%s", unit);
          printf("\n");
          // flush the stdout puffer, that pipes work without waiting
          fflush(stdout);
        }
      }
      if (sflag)
        exit(0); // processed first message - exit
    }
  }

  // free the malloc'd memory
  sml_file_free(file);
}
```
Variables: 0 `buffer`, 1 `buffer_len`, 2 `i`, 3 `file`, 4 `message`, 5 `entry`, 6 `body`, 7 `str`, 8 `value`, 9 `scaler`, 10 `prec`, 11 `unit`. -/
def transport_receiver : FunDef where
  params := [none, some .u64]
  res := none
  body := [
    .setPtr 3 (.call .sml_file_parse [.addr (.var 0) (.lit .i32 8), .bin .sub (.var 1) (.lit .i32 16)]),
    .ite (.flag 1) [
      .expr (.call .sml_file_print [.var 3])] [],
    .ite (.flag 1) [
      .printf [.text "OBIS data\n"] []] [],
    .set .i32 2 (.lit .i32 0),
    .loop (.bin .lt (.var 2) (.ldInt .i16 (.var 3) 0)) [
      .setPtr 4 (.elem (.ldPtr (.var 3) 0) (.var 2)),
      .ite (.bin .eq (.deref .u32 (.ldPtr (.ldPtr (.var 4) 3) 0)) (.lit .i32 1793)) [
        .setPtr 6 (.ldPtr (.ldPtr (.var 4) 3) 1),
        .setPtr 5 (.ldPtr (.var 6) 4),
        .loop (.bin .ne (.var 5) .null) [
          .ite (.not (.ldPtr (.var 5) 5)) [
            .print [],
            .cont] [],
          .ite (.bin .eq (.ldInt .u8 (.ldPtr (.var 5) 5) 0) (.lit .i32 0)) [
            .ptrVar 7,
            .printf [.dec, .text "-", .dec, .text ":", .dec, .text ".", .dec, .text ".", .dec, .text "*", .dec, .text "#", .str, .text "#\n"] [.byte .u8 (.ldPtr (.ldPtr (.var 5) 0) 0) (.lit .i32 0), .byte .u8 (.ldPtr (.ldPtr (.var 5) 0) 0) (.lit .i32 1), .byte .u8 (.ldPtr (.ldPtr (.var 5) 0) 0) (.lit .i32 2), .byte .u8 (.ldPtr (.ldPtr (.var 5) 0) 0) (.lit .i32 3), .byte .u8 (.ldPtr (.ldPtr (.var 5) 0) 0) (.lit .i32 4), .byte .u8 (.ldPtr (.ldPtr (.var 5) 0) 0) (.lit .i32 5), .call .sml_value_to_strhex [.ldPtr (.var 5) 5, .var 7, .lit .i32 1]],
            .free (.ldPtr (.var 7) 0)] [
            .ite (.bin .eq (.ldInt .u8 (.ldPtr (.var 5) 5) 0) (.lit .i32 64)) [
              .printf [.dec, .text "-", .dec, .text ":", .dec, .text ".", .dec, .text ".", .dec, .text "*", .dec, .text "#", .str, .text "#\n"] [.byte .u8 (.ldPtr (.ldPtr (.var 5) 0) 0) (.lit .i32 0), .byte .u8 (.ldPtr (.ldPtr (.var 5) 0) 0) (.lit .i32 1), .byte .u8 (.ldPtr (.ldPtr (.var 5) 0) 0) (.lit .i32 2), .byte .u8 (.ldPtr (.ldPtr (.var 5) 0) 0) (.lit .i32 3), .byte .u8 (.ldPtr (.ldPtr (.var 5) 0) 0) (.lit .i32 4), .byte .u8 (.ldPtr (.ldPtr (.var 5) 0) 0) (.lit .i32 5), .cond (.ldPtr (.ldPtr (.var 5) 5) 0) (.str "true") (.str "false")]] [
              .ite (.or (.bin .eq (.bin .band (.ldInt .u8 (.ldPtr (.var 5) 5) 0) (.lit .i32 112)) (.lit .i32 80)) (.bin .eq (.bin .band (.ldInt .u8 (.ldPtr (.var 5) 5) 0) (.lit .i32 112)) (.lit .i32 96))) [
                .setPtr 8 (.call .sml_value_to_double [.ldPtr (.var 5) 5]),
                .set .i32 9 (.cond (.ldPtr (.var 5) 4) (.deref .i8 (.ldPtr (.var 5) 4)) (.lit .i32 0)),
                .set .i32 10 (.neg (.var 9)),
                .ite (.bin .lt (.var 10) (.lit .i32 0)) [
                  .set .i32 10 (.lit .i32 0)] [],
                .setPtr 8 (.mulDbl (.var 8) (.pow10 (.var 9))),
                .printf [.dec, .text "-", .dec, .text ":", .dec, .text ".", .dec, .text ".", .dec, .text "*", .dec, .text "#", .fixed, .text "#"] [.byte .u8 (.ldPtr (.ldPtr (.var 5) 0) 0) (.lit .i32 0), .byte .u8 (.ldPtr (.ldPtr (.var 5) 0) 0) (.lit .i32 1), .byte .u8 (.ldPtr (.ldPtr (.var 5) 0) 0) (.lit .i32 2), .byte .u8 (.ldPtr (.ldPtr (.var 5) 0) 0) (.lit .i32 3), .byte .u8 (.ldPtr (.ldPtr (.var 5) 0) 0) (.lit .i32 4), .byte .u8 (.ldPtr (.ldPtr (.var 5) 0) 0) (.lit .i32 5), .var 10, .var 8],
                .setPtr 11 .null,
                .ite (.and (.ldPtr (.var 5) 3) (.bin .ne (.assignPtr 11 (.call .dlms_get_unit [.cast .u8 (.deref .u8 (.ldPtr (.var 5) 3))])) .null)) [
                  .printf [.str] [.var 11]] [],
                .printf [.text "\n"] [],
                .print []] []]]] [
          .setPtr 5 (.ldPtr (.var 5) 7)],
        .ite (.flag 0) [
          .exit 0] []] []] [
      .set .i32 2 (.bin .add (.var 2) (.lit .i32 1))],
    .expr (.call .sml_file_free [.var 3])]

/-- `main` (examples/sml_server.c:156-204).
```
int main(int argc, char *argv[]) {
  // this example assumes that a EDL21 meter sending SML messages via a
  // serial device. Adjust as needed.
  int c;

  while ((c = getopt(argc, argv, "+hsv")) != -1) {
    switch (c) {
    case 'h':
      printf("usage: %s [-h] [-s] [-v] device\n", argv[0]);
      printf("device - serial device of connected power meter e.g. /dev/cu.usbserial, or - for stdin\n");
      printf("-h - help\n");
      printf("-s - process only one OBIS data stream (single)\n");
      printf("-v - verbose\n");
      exit(0); // exit here
      break;
    case 's':
      sflag = true;
      break;
    case 'v':
      vflag = true;
      break;
    case '?':
      // get a not specified switch, error message is printed by getopt()
      printf("Use %s -h for help.\n", argv[0]);
      exit(1); // exit here
      break;
    default:
      break;
    }
  }

  if (argc - optind != 1) {
    printf("error: Arguments mismatch.\nUse %s -h for help.\n", argv[0]);
    exit(1); // exit here
  }

  // open serial port
  int fd = serial_port_open(argv[optind]);
  if (fd < 0) {
    // error message is printed by serial_port_open()
    exit(1);
  }

  // listen on the serial device, this call is blocking.
  sml_transport_listen(fd, &transport_receiver);
  close(fd);

  return 0;
}
```
Variables: 0 `argc`, 1 `argv`, 2 `c`, 3 `fd`. -/
def main : FunDef where
  params := [some .i32, none]
  res := some .i32
  body := [
    .loop (.bin .ne (.assign .i32 2 (.getopt (.var 0) (.var 1) "hsv")) (.lit .i32 (-1))) [
      .switch (.var 2) [
        .case 104,
        .printf [.text "usage: ", .str, .text " [-h] [-s] [-v] device\n"] [.elem (.var 1) (.lit .i32 0)],
        .printf [.text "device - serial device of connected power meter e.g. /dev/cu.usbserial, or - for stdin\n"] [],
        .printf [.text "-h - help\n"] [],
        .printf [.text "-s - process only one OBIS data stream (single)\n"] [],
        .printf [.text "-v - verbose\n"] [],
        .exit 0,
        .brk,
        .case 115,
        .setFlag 0 (.lit .i32 1),
        .brk,
        .case 118,
        .setFlag 1 (.lit .i32 1),
        .brk,
        .case 63,
        .printf [.text "Use ", .str, .text " -h for help.\n"] [.elem (.var 1) (.lit .i32 0)],
        .exit 1,
        .brk,
        .dflt,
        .brk]] [],
    .ite (.bin .ne (.bin .sub (.var 0) (.flag 2)) (.lit .i32 1)) [
      .printf [.text "error: Arguments mismatch.\nUse ", .str, .text " -h for help.\n"] [.elem (.var 1) (.lit .i32 0)],
      .exit 1] [],
    .set .i32 3 (.call .serial_port_open [.elem (.var 1) (.flag 2)]),
    .ite (.bin .lt (.var 3) (.lit .i32 0)) [
      .exit 1] [],
    .expr (.call .sml_transport_listen [.var 3, .fn .transport_receiver]),
    .close (.var 3),
    .ret (.lit .i32 0)]

end Sml.C
