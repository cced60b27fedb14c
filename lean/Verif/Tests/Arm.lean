import Verif.Model.Located
import Verif.Model.Top
import Verif.Props.RoundTripExamples
import Verif.Tests.Repo

/-!
# A whole device file: tests/data/ARM_Sample_faulty.svd

The file of tests/src/bad_svd.rs, which only requires that reading it fails, and the same file with
the fault repaired, which is read, written, read again and expanded.
-/

namespace Svd.Tests

set_option maxRecDepth 4000 in
/-- The `device` element of tests/data/ARM_Sample_faulty.svd, with the text of the one
`modifiedWriteValues` left open; the file has `oneToFail` (line 78). -/
def armDevice (mwv : Str) : Xml :=
  .elem "device" [("schemaVersion", "1.0".toList),
    ("xmlns:xs", "http://www.w3.org/2001/XMLSchema-instance".toList),
    ("xs:noNamespaceSchemaLocation", "CMSIS-SVD_Schema_1_0.xsd".toList)] [
    sp, leaf "name" "ARMCM3xxx", sp, .other, sp, leaf "version" "1.0", sp, .other, sp,
    leaf "description"
      "ARM 32-bit Cortex-M3 Microcontroller based device, CPU clock up to 80MHz, etc. ",
    sp, leaf "addressUnitBits" "8", sp, .other, sp, leaf "width" "32", sp, .other, sp, .other, sp,
    leaf "size" "32", sp, .other, sp, leaf "access" "read-write", sp, .other, sp,
    leaf "resetValue" "0x00000000", sp, .other, sp, leaf "resetMask" "0xFFFFFFFF", sp, .other, sp,
    .elem "peripherals" [] [
      sp, .other, sp,
      .elem "peripheral" [] [
        sp, leaf "name" "TIMER0", sp, leaf "version" "1.0", sp,
        leaf "description" "32 Timer / Counter, counting up or down from different sources", sp,
        leaf "groupName" "TIMER", sp, leaf "baseAddress" "0x40010000", sp, leaf "size" "32", sp,
        leaf "access" "read-write", sp,
        .elem "addressBlock" [] [
          sp, leaf "offset" "0", sp, leaf "size" "0x100", sp, leaf "usage" "registers", sp],
        sp,
        .elem "interrupt" [] [
          sp, leaf "name" "TIMER0", sp, leaf "value" "0", sp],
        sp,
        .elem "registers" [] [
          sp, .other, sp,
          .elem "register" [] [
            sp, leaf "name" "CR", sp, leaf "description" "Control Register", sp,
            leaf "addressOffset" "0x00", sp, leaf "size" "32", sp, leaf "access" "read-write", sp,
            leaf "resetValue" "0x00000000", sp, leaf "resetMask" "0x1337F7F", sp,
            .elem "fields" [] [
              sp, .other, sp,
              .elem "field" [] [
                sp, leaf "name" "EN", sp, leaf "description" "Enable", sp, leaf "bitRange" "[0:0]",
                sp, leaf "access" "read-write", sp,
                .elem "enumeratedValues" [] [
                  sp,
                  .elem "enumeratedValue" [] [
                    sp, leaf "name" "Disable", sp,
                    leaf "description" "Timer is disabled and does not operate", sp,
                    leaf "value" "0", sp],
                  sp,
                  .elem "enumeratedValue" [] [
                    sp, leaf "name" "Enable", sp,
                    leaf "description"
                      "Timer is enabled and can operate", sp, leaf "value" "1", sp],
                  sp],
                sp, .elem "modifiedWriteValues" [] [.text mwv], sp],
              sp, .other, sp,
              .elem "field" [] [
                sp, leaf "name" "RST", sp, leaf "description" "Reset Timer", sp,
                leaf "bitRange" "[1:1]", sp, leaf "access" "write-only", sp,
                .elem "enumeratedValues" [] [
                  sp,
                  .elem "enumeratedValue" [] [
                    sp, leaf "name" "Reserved", sp, leaf "description" "Write as ZERO if necessary",
                    sp, leaf "value" "0", sp],
                  sp,
                  .elem "enumeratedValue" [] [
                    sp, leaf "name" "Reset_Timer", sp, leaf "description" "Reset the Timer", sp,
                    leaf "value" "1", sp],
                  sp],
                sp],
              sp, .other, sp,
              .elem "field" [] [
                sp, leaf "name" "CNT", sp, leaf "description" "Counting direction", sp,
                leaf "bitRange" "[3:2]", sp, leaf "access" "read-write", sp,
                .elem "enumeratedValues" [] [
                  sp,
                  .elem "enumeratedValue" [] [
                    sp, leaf "name" "Count_UP", sp,
                    leaf "description" "Timer Counts UO and wraps, if no STOP condition is set", sp,
                    leaf "value" "0", sp],
                  sp,
                  .elem "enumeratedValue" [] [
                    sp, leaf "name" "Count_DOWN", sp,
                    leaf "description" "Timer Counts DOWN and wraps, if no STOP condition is set",
                    sp, leaf "value" "1", sp],
                  sp,
                  .elem "enumeratedValue" [] [
                    sp, leaf "name" "Toggle", sp,
                    leaf "description"
                      "Timer Counts up to MAX, then DOWN to ZERO, if no STOP condition is set",
                    sp, leaf "value" "2", sp],
                  sp],
                sp],
              sp, .other, sp,
              .elem "field" [] [
                sp, leaf "name" "MODE", sp, leaf "description" "Operation Mode", sp,
                leaf "bitRange" "[6:4]", sp, leaf "access" "read-write", sp,
                .elem "enumeratedValues" [] [
                  sp,
                  .elem "enumeratedValue" [] [
                    sp, leaf "name" "Continous", sp, leaf "description" "Timer runs continously",
                    sp, leaf "value" "0", sp],
                  sp,
                  .elem "enumeratedValue" [] [
                    sp, leaf "name" "Single_ZERO_MAX", sp,
                    leaf "description"
                      "Timer counts to 0x00 or 0xFFFFFFFF (depending on CNT) and stops",
                    sp, leaf "value" "1", sp],
                  sp,
                  .elem "enumeratedValue" [] [
                    sp, leaf "name" "Single_MATCH", sp,
                    leaf "description" "Timer counts to the Value of MATCH Register and stops", sp,
                    leaf "value" "2", sp],
                  sp,
                  .elem "enumeratedValue" [] [
                    sp, leaf "name" "Reload_ZERO_MAX", sp,
                    leaf "description"
                      "Timer counts to 0x00 or 0xFFFFFFFF (depending on CNT), loads the RELOAD Value and continues",
                    sp, leaf "value" "3", sp],
                  sp,
                  .elem "enumeratedValue" [] [
                    sp, leaf "name" "Reload_MATCH", sp,
                    leaf "description"
                      "Timer counts to the Value of MATCH Register, loads the RELOAD Value and continues",
                    sp, leaf "value" "4", sp],
                  sp],
                sp],
              sp, .other, sp,
              .elem "field" [] [
                sp, leaf "name" "PSC", sp, leaf "description" "Use Prescaler", sp,
                leaf "bitRange" "[7:7]", sp, leaf "access" "read-write", sp,
                .elem "enumeratedValues" [] [
                  sp,
                  .elem "enumeratedValue" [] [
                    sp, leaf "name" "Disabled", sp, leaf "description" "Prescaler is not used", sp,
                    leaf "value" "0", sp],
                  sp,
                  .elem "enumeratedValue" [] [
                    sp, leaf "name" "Enabled", sp,
                    leaf "description" "Prescaler is used as divider", sp, leaf "value" "1", sp],
                  sp],
                sp],
              sp, .other, sp,
              .elem "field" [] [
                sp, leaf "name" "CNTSRC", sp, leaf "description" "Timer / Counter Source Divider",
                sp, leaf "bitRange" "[11:8]", sp, leaf "access" "read-write", sp,
                .elem "enumeratedValues" [] [
                  sp,
                  .elem "enumeratedValue" [] [
                    sp, leaf "name" "CAP_SRC", sp,
                    leaf "description" "Capture Source is used directly", sp, leaf "value" "0", sp],
                  sp,
                  .elem "enumeratedValue" [] [
                    sp, leaf "name" "CAP_SRC_div2", sp,
                    leaf "description" "Capture Source is divided by 2", sp, leaf "value" "1", sp],
                  sp,
                  .elem "enumeratedValue" [] [
                    sp, leaf "name" "CAP_SRC_div4", sp,
                    leaf "description" "Capture Source is divided by 4", sp, leaf "value" "2", sp],
                  sp,
                  .elem "enumeratedValue" [] [
                    sp, leaf "name" "CAP_SRC_div8", sp,
                    leaf "description" "Capture Source is divided by 8", sp, leaf "value" "3", sp],
                  sp,
                  .elem "enumeratedValue" [] [
                    sp, leaf "name" "CAP_SRC_div16", sp,
                    leaf "description" "Capture Source is divided by 16", sp, leaf "value" "4", sp],
                  sp,
                  .elem "enumeratedValue" [] [
                    sp, leaf "name" "CAP_SRC_div32", sp,
                    leaf "description" "Capture Source is divided by 32", sp, leaf "value" "5", sp],
                  sp,
                  .elem "enumeratedValue" [] [
                    sp, leaf "name" "CAP_SRC_div64", sp,
                    leaf "description" "Capture Source is divided by 64", sp, leaf "value" "6", sp],
                  sp,
                  .elem "enumeratedValue" [] [
                    sp, leaf "name" "CAP_SRC_div128", sp,
                    leaf "description"
                      "Capture Source is divided by 128", sp, leaf "value" "7", sp],
                  sp,
                  .elem "enumeratedValue" [] [
                    sp, leaf "name" "CAP_SRC_div256", sp,
                    leaf "description"
                      "Capture Source is divided by 256", sp, leaf "value" "8", sp],
                  sp],
                sp],
              sp, .other, sp,
              .elem "field" [] [
                sp, leaf "name" "CAPSRC", sp, leaf "description" "Timer / Counter Capture Source",
                sp, leaf "bitRange" "[15:12]", sp, leaf "access" "read-write", sp,
                .elem "enumeratedValues" [] [
                  sp,
                  .elem "enumeratedValue" [] [
                    sp, leaf "name" "CClk", sp, leaf "description" "Core Clock", sp,
                    leaf "value" "0", sp],
                  sp,
                  .elem "enumeratedValue" [] [
                    sp, leaf "name" "GPIOA_0", sp, leaf "description" "GPIO A, PIN 0", sp,
                    leaf "value" "1", sp],
                  sp,
                  .elem "enumeratedValue" [] [
                    sp, leaf "name" "GPIOA_1", sp, leaf "description" "GPIO A, PIN 1", sp,
                    leaf "value" "2", sp],
                  sp,
                  .elem "enumeratedValue" [] [
                    sp, leaf "name" "GPIOA_2", sp, leaf "description" "GPIO A, PIN 2", sp,
                    leaf "value" "3", sp],
                  sp,
                  .elem "enumeratedValue" [] [
                    sp, leaf "name" "GPIOA_3", sp, leaf "description" "GPIO A, PIN 3", sp,
                    leaf "value" "4", sp],
                  sp,
                  .elem "enumeratedValue" [] [
                    sp, leaf "name" "GPIOA_4", sp, leaf "description" "GPIO A, PIN 4", sp,
                    leaf "value" "5", sp],
                  sp,
                  .elem "enumeratedValue" [] [
                    sp, leaf "name" "GPIOA_5", sp, leaf "description" "GPIO A, PIN 5", sp,
                    leaf "value" "6", sp],
                  sp,
                  .elem "enumeratedValue" [] [
                    sp, leaf "name" "GPIOA_6", sp, leaf "description" "GPIO A, PIN 6", sp,
                    leaf "value" "7", sp],
                  sp,
                  .elem "enumeratedValue" [] [
                    sp, leaf "name" "GPIOA_7", sp, leaf "description" "GPIO A, PIN 7", sp,
                    leaf "value" "8", sp],
                  sp,
                  .elem "enumeratedValue" [] [
                    sp, leaf "name" "GPIOB_0", sp, leaf "description" "GPIO B, PIN 0", sp,
                    leaf "value" "9", sp],
                  sp,
                  .elem "enumeratedValue" [] [
                    sp, leaf "name" "GPIOB_1", sp, leaf "description" "GPIO B, PIN 1", sp,
                    leaf "value" "10", sp],
                  sp,
                  .elem "enumeratedValue" [] [
                    sp, leaf "name" "GPIOB_2", sp, leaf "description" "GPIO B, PIN 2", sp,
                    leaf "value" "11", sp],
                  sp,
                  .elem "enumeratedValue" [] [
                    sp, leaf "name" "GPIOB_3", sp, leaf "description" "GPIO B, PIN 3", sp,
                    leaf "value" "12", sp],
                  sp,
                  .elem "enumeratedValue" [] [
                    sp, leaf "name" "GPIOC_0", sp, leaf "description" "GPIO C, PIN 0", sp,
                    leaf "value" "13", sp],
                  sp,
                  .elem "enumeratedValue" [] [
                    sp, leaf "name" "GPIOC_5", sp, leaf "description" "GPIO C, PIN 1", sp,
                    leaf "value" "14", sp],
                  sp,
                  .elem "enumeratedValue" [] [
                    sp, leaf "name" "GPIOC_6", sp, leaf "description" "GPIO C, PIN 2", sp,
                    leaf "value" "15", sp],
                  sp],
                sp],
              sp, .other, sp,
              .elem "field" [] [
                sp, leaf "name" "CAPEDGE", sp,
                leaf "description"
                  "Capture Edge, select which Edge should result in a counter increment or decrement",
                sp, leaf "bitRange" "[17:16]", sp, leaf "access" "read-write", sp,
                .elem "enumeratedValues" [] [
                  sp,
                  .elem "enumeratedValue" [] [
                    sp, leaf "name" "RISING", sp,
                    leaf "description"
                      "Only rising edges result in a counter increment or decrement",
                    sp, leaf "value" "0", sp],
                  sp,
                  .elem "enumeratedValue" [] [
                    sp, leaf "name" "FALLING", sp,
                    leaf "description"
                      "Only falling edges  result in a counter increment or decrement",
                    sp, leaf "value" "1", sp],
                  sp,
                  .elem "enumeratedValue" [] [
                    sp, leaf "name" "BOTH", sp,
                    leaf "description"
                      "Rising and falling edges result in a counter increment or decrement",
                    sp, leaf "value" "2", sp],
                  sp],
                sp],
              sp, .other, sp,
              .elem "field" [] [
                sp, leaf "name" "TRGEXT", sp, leaf "description" "Triggers an other Peripheral", sp,
                leaf "bitRange" "[21:20]", sp, leaf "access" "read-write", sp,
                .elem "enumeratedValues" [] [
                  sp,
                  .elem "enumeratedValue" [] [
                    sp, leaf "name" "NONE", sp, leaf "description" "No Trigger is emitted", sp,
                    leaf "value" "0", sp],
                  sp,
                  .elem "enumeratedValue" [] [
                    sp, leaf "name" "DMA1", sp,
                    leaf "description" "DMA Controller 1 is triggered, dependant on MODE", sp,
                    leaf "value" "1", sp],
                  sp,
                  .elem "enumeratedValue" [] [
                    sp, leaf "name" "DMA2", sp,
                    leaf "description" "DMA Controller 2 is triggered, dependant on MODE", sp,
                    leaf "value" "2", sp],
                  sp,
                  .elem "enumeratedValue" [] [
                    sp, leaf "name" "UART", sp,
                    leaf "description" "UART is triggered, dependant on MODE", sp, leaf "value" "3",
                    sp],
                  sp],
                sp],
              sp, .other, sp,
              .elem "field" [] [
                sp, leaf "name" "RELOAD", sp,
                leaf "description" "Select RELOAD Register n to reload Timer on condition", sp,
                leaf "bitRange" "[25:24]", sp, leaf "access" "read-write", sp,
                .elem "enumeratedValues" [] [
                  sp,
                  .elem "enumeratedValue" [] [
                    sp, leaf "name" "RELOAD0", sp,
                    leaf "description"
                      "Selects Reload Register number 0", sp, leaf "value" "0", sp],
                  sp,
                  .elem "enumeratedValue" [] [
                    sp, leaf "name" "RELOAD1", sp,
                    leaf "description"
                      "Selects Reload Register number 1", sp, leaf "value" "1", sp],
                  sp,
                  .elem "enumeratedValue" [] [
                    sp, leaf "name" "RELOAD2", sp,
                    leaf "description"
                      "Selects Reload Register number 2", sp, leaf "value" "2", sp],
                  sp,
                  .elem "enumeratedValue" [] [
                    sp, leaf "name" "RELOAD3", sp,
                    leaf "description"
                      "Selects Reload Register number 3", sp, leaf "value" "3", sp],
                  sp],
                sp],
              sp, .other, sp,
              .elem "field" [] [
                sp, leaf "name" "IDR", sp,
                leaf "description"
                  "Selects, if Reload Register number is incremented, decremented or not modified",
                sp, leaf "bitRange" "[27:26]", sp, leaf "access" "read-write", sp,
                .elem "enumeratedValues" [] [
                  sp,
                  .elem "enumeratedValue" [] [
                    sp, leaf "name" "KEEP", sp,
                    leaf "description" "Reload Register number does not change automatically", sp,
                    leaf "value" "0", sp],
                  sp,
                  .elem "enumeratedValue" [] [
                    sp, leaf "name" "INCREMENT", sp,
                    leaf "description" "Reload Register number is incremented on each match", sp,
                    leaf "value" "1", sp],
                  sp,
                  .elem "enumeratedValue" [] [
                    sp, leaf "name" "DECREMENT", sp,
                    leaf "description" "Reload Register number is decremented on each match", sp,
                    leaf "value" "2", sp],
                  sp],
                sp],
              sp, .other, sp,
              .elem "field" [] [
                sp, leaf "name" "S", sp, leaf "description" "Starts and Stops the Timer / Counter",
                sp, leaf "bitRange" "[31:31]", sp, leaf "access" "read-write", sp,
                .elem "enumeratedValues" [] [
                  sp,
                  .elem "enumeratedValue" [] [
                    sp, leaf "name" "STOP", sp, leaf "description" "Timer / Counter is stopped", sp,
                    leaf "value" "0", sp],
                  sp,
                  .elem "enumeratedValue" [] [
                    sp, leaf "name" "START", sp, leaf "description" "Timer / Counter is started",
                    sp, leaf "value" "1", sp],
                  sp],
                sp],
              sp],
            sp],
          sp, .other, sp,
          .elem "register" [] [
            sp, leaf "name" "SR", sp, leaf "description" "Status Register", sp,
            leaf "addressOffset" "0x04", sp, leaf "size" "16", sp, leaf "access" "read-write", sp,
            leaf "resetValue" "0x00000000", sp, leaf "resetMask" "0xD701", sp,
            .elem "fields" [] [
              sp, .other, sp,
              .elem "field" [] [
                sp, leaf "name" "RUN", sp, leaf "description" "Shows if Timer is running or not",
                sp, leaf "bitRange" "[0:0]", sp, leaf "access" "read-only", sp,
                .elem "enumeratedValues" [] [
                  sp,
                  .elem "enumeratedValue" [] [
                    sp, leaf "name" "Stopped", sp, leaf "description" "Timer is not running", sp,
                    leaf "value" "0", sp],
                  sp,
                  .elem "enumeratedValue" [] [
                    sp, leaf "name" "Running", sp, leaf "description" "Timer is running", sp,
                    leaf "value" "1", sp],
                  sp],
                sp],
              sp, .other, sp,
              .elem "field" [] [
                sp, leaf "name" "MATCH", sp, leaf "description" "Shows if the MATCH was hit", sp,
                leaf "bitRange" "[8:8]", sp, leaf "access" "read-write", sp,
                .elem "enumeratedValues" [] [
                  sp,
                  .elem "enumeratedValue" [] [
                    sp, leaf "name" "No_Match", sp,
                    leaf "description" "The MATCH condition was not hit", sp, leaf "value" "0", sp],
                  sp,
                  .elem "enumeratedValue" [] [
                    sp, leaf "name" "Match_Hit", sp,
                    leaf "description" "The MATCH condition was hit", sp, leaf "value" "1", sp],
                  sp],
                sp],
              sp, .other, sp,
              .elem "field" [] [
                sp, leaf "name" "UN", sp,
                leaf "description" "Shows if an underflow occured. This flag is sticky", sp,
                leaf "bitRange" "[9:9]", sp, leaf "access" "read-write", sp,
                .elem "enumeratedValues" [] [
                  sp,
                  .elem "enumeratedValue" [] [
                    sp, leaf "name" "No_Underflow", sp,
                    leaf "description" "No underflow occured since last clear", sp,
                    leaf "value" "0", sp],
                  sp,
                  .elem "enumeratedValue" [] [
                    sp, leaf "name" "Underflow", sp,
                    leaf "description" "A minimum of one underflow occured since last clear", sp,
                    leaf "value" "1", sp],
                  sp],
                sp],
              sp, .other, sp,
              .elem "field" [] [
                sp, leaf "name" "OV", sp,
                leaf "description" "Shows if an overflow occured. This flag is sticky", sp,
                leaf "bitRange" "[10:10]", sp, leaf "access" "read-write", sp,
                .elem "enumeratedValues" [] [
                  sp,
                  .elem "enumeratedValue" [] [
                    sp, leaf "name" "No_Overflow", sp,
                    leaf "description" "No overflow occured since last clear", sp, leaf "value" "0",
                    sp],
                  sp,
                  .elem "enumeratedValue" [] [
                    sp, leaf "name" "Overflow_occured", sp,
                    leaf "description" "A minimum of one overflow occured since last clear", sp,
                    leaf "value" "1", sp],
                  sp],
                sp],
              sp, .other, sp,
              .elem "field" [] [
                sp, leaf "name" "RST", sp, leaf "description" "Shows if Timer is in RESET state",
                sp, leaf "bitRange" "[12:12]", sp, leaf "access" "read-only", sp,
                .elem "enumeratedValues" [] [
                  sp,
                  .elem "enumeratedValue" [] [
                    sp, leaf "name" "Ready", sp,
                    leaf "description" "Timer is not in RESET state and can operate", sp,
                    leaf "value" "0", sp],
                  sp,
                  .elem "enumeratedValue" [] [
                    sp, leaf "name" "In_Reset", sp,
                    leaf "description" "Timer is in RESET state and can not operate", sp,
                    leaf "value" "1", sp],
                  sp],
                sp],
              sp, .other, sp,
              .elem "field" [] [
                sp, leaf "name" "RELOAD", sp,
                leaf "description" "Shows the currently active RELOAD Register", sp,
                leaf "bitRange" "[15:14]", sp, leaf "access" "read-only", sp,
                .elem "enumeratedValues" [] [
                  sp,
                  .elem "enumeratedValue" [] [
                    sp, leaf "name" "RELOAD0", sp,
                    leaf "description" "Reload Register number 0 is active", sp, leaf "value" "0",
                    sp],
                  sp,
                  .elem "enumeratedValue" [] [
                    sp, leaf "name" "RELOAD1", sp,
                    leaf "description" "Reload Register number 1 is active", sp, leaf "value" "1",
                    sp],
                  sp,
                  .elem "enumeratedValue" [] [
                    sp, leaf "name" "RELOAD2", sp,
                    leaf "description" "Reload Register number 2 is active", sp, leaf "value" "2",
                    sp],
                  sp,
                  .elem "enumeratedValue" [] [
                    sp, leaf "name" "RELOAD3", sp,
                    leaf "description" "Reload Register number 3 is active", sp, leaf "value" "3",
                    sp],
                  sp],
                sp],
              sp],
            sp],
          sp, .other, sp,
          .elem "register" [] [
            sp, leaf "name" "INT", sp, leaf "description" "Interrupt Register", sp,
            leaf "addressOffset" "0x10", sp, leaf "size" "16", sp, leaf "access" "read-write", sp,
            leaf "resetValue" "0x00000000", sp, leaf "resetMask" "0x0771", sp,
            .elem "fields" [] [
              sp, .other, sp,
              .elem "field" [] [
                sp, leaf "name" "EN", sp, leaf "description" "Interrupt Enable", sp,
                leaf "bitRange" "[0:0]", sp, leaf "access" "read-write", sp,
                .elem "enumeratedValues" [] [
                  sp,
                  .elem "enumeratedValue" [] [
                    sp, leaf "name" "Disabled", sp,
                    leaf "description" "Timer does not generate Interrupts", sp, leaf "value" "0",
                    sp],
                  sp,
                  .elem "enumeratedValue" [] [
                    sp, leaf "name" "Enable", sp,
                    leaf "description" "Timer triggers the TIMERn Interrupt", sp, leaf "value" "1",
                    sp],
                  sp],
                sp],
              sp, .other, sp,
              .elem "field" [] [
                sp, leaf "name" "MODE", sp,
                leaf "description"
                  "Interrupt Mode, selects on which condition the Timer should generate an Interrupt",
                sp, leaf "bitRange" "[6:4]", sp, leaf "access" "read-write", sp,
                .elem "enumeratedValues" [] [
                  sp,
                  .elem "enumeratedValue" [] [
                    sp, leaf "name" "Match", sp,
                    leaf "description"
                      "Timer generates an Interrupt when the MATCH condition is hit",
                    sp, leaf "value" "0", sp],
                  sp,
                  .elem "enumeratedValue" [] [
                    sp, leaf "name" "Underflow", sp,
                    leaf "description" "Timer generates an Interrupt when it underflows", sp,
                    leaf "value" "1", sp],
                  sp,
                  .elem "enumeratedValue" [] [
                    sp, leaf "name" "Overflow", sp,
                    leaf "description" "Timer generates an Interrupt when it overflows", sp,
                    leaf "value" "2", sp],
                  sp],
                sp],
              sp],
            sp],
          sp, .other, sp,
          .elem "register" [] [
            sp, leaf "name" "COUNT", sp,
            leaf "description"
              "The Counter Register reflects the actual Value of the Timer/Counter",
            sp, leaf "addressOffset" "0x20", sp, leaf "size" "32", sp, leaf "access" "read-write",
            sp, leaf "resetValue" "0x00000000", sp, leaf "resetMask" "0xFFFFFFFF", sp],
          sp, .other, sp,
          .elem "register" [] [
            sp, leaf "name" "MATCH", sp,
            leaf "description"
              "The Match Register stores the compare Value for the MATCH condition",
            sp, leaf "addressOffset" "0x24", sp, leaf "size" "32", sp, leaf "access" "read-write",
            sp, leaf "resetValue" "0x00000000", sp, leaf "resetMask" "0xFFFFFFFF", sp],
          sp, .other, sp,
          .elem "register" [] [
            sp, leaf "name" "PRESCALE_RD", sp,
            leaf "description"
              "The Prescale Register stores the Value for the prescaler. The cont event gets divided by this value",
            sp, leaf "addressOffset" "0x28", sp, leaf "size" "32", sp, leaf "access" "read-only",
            sp, leaf "resetValue" "0x00000000", sp, leaf "resetMask" "0xFFFFFFFF", sp],
          sp, .other, sp,
          .elem "register" [] [
            sp, leaf "name" "PRESCALE_WR", sp,
            leaf "description"
              "The Prescale Register stores the Value for the prescaler. The cont event gets divided by this value",
            sp, leaf "addressOffset" "0x28", sp, leaf "size" "32", sp, leaf "access" "write-only",
            sp, leaf "resetValue" "0x00000000", sp, leaf "resetMask" "0xFFFFFFFF", sp],
          sp, .other, sp,
          .elem "register" [] [
            sp, leaf "dim" "4", sp, leaf "dimIncrement" "4", sp, leaf "dimIndex" "0,1,2,3", sp,
            leaf "name" "RELOAD[%s]", sp,
            leaf "description"
              "The Reload Register stores the Value the COUNT Register gets reloaded on a when a condition was met.",
            sp, leaf "addressOffset" "0x50", sp, leaf "size" "32", sp, leaf "access" "read-write",
            sp, leaf "resetValue" "0x00000000", sp, leaf "resetMask" "0xFFFFFFFF", sp],
          sp],
        sp],
      sp, .other, sp,
      .elem "peripheral" [("derivedFrom", "TIMER0".toList)] [
        sp, leaf "name" "TIMER1", sp, leaf "baseAddress" "0x40010100", sp,
        .elem "interrupt" [] [
          sp, leaf "name" "TIMER1", sp, leaf "value" "4", sp],
        sp],
      sp, .other, sp,
      .elem "peripheral" [("derivedFrom", "TIMER0".toList)] [
        sp, leaf "name" "TIMER2", sp, leaf "baseAddress" "0x40010200", sp,
        .elem "interrupt" [] [
          sp, leaf "name" "TIMER2", sp, leaf "value" "6", sp],
        sp],
      sp],
    sp]

/-- The file: two comments, then the device. -/
def armFile (mwv : Str) : List Xml := [.other, .other, armDevice mwv]

/-- tests/src/bad_svd.rs: reading the file fails.  The report names the tag, the field, the register,
the peripheral and the device that the fault is in. -/
example : (match parseReport true {} (armFile "oneToFail".toList) with
    | .error r => decide (r = .at (.invalidModifiedWriteValues "oneToFail".toList)
        [.parsingUnknown "modifiedWriteValues" [2, 37, 3, 19, 3, 15, 3, 11],
          .within "field" "EN".toList, .within "register" "CR".toList,
          .within "peripheral" "TIMER0".toList, .within "device" "ARMCM3xxx".toList])
    | .ok _ => false) = true := by decide +kernel

/-- With `oneToClear` the file is read, without faults at the strictest level, and what is read can be
written without loss. -/
theorem arm_read : (match parseDocument true { validateLevel := .strict }
      (armFile "oneToClear".toList) with
    | .ok d => decide (Spec.Expressible .strict d)
    | .error _ => false) = true := by decide +kernel

/-- C26 for this device: it is written, and what is written is read as the same device. -/
example : ∃ d t, parseDocument true { validateLevel := .strict } (armFile "oneToClear".toList) = .ok d ∧
    encodeDevice true cc {} d = .ok t ∧
    ∀ y, Spec.Reread t y → parseDevice true { validateLevel := .strict } y = .ok d := by
  have h := arm_read
  split at h
  case h_1 d hd =>
    obtain ⟨t, h1, h2⟩ := C26_lossless true cc { validateLevel := .strict } rfl d (of_decide_eq_true h)
    exact ⟨d, t, hd, h1, h2⟩
  case h_2 => cases h

/-- The name, the address and the registers of a peripheral. -/
def summary (p : Peripheral) : Str × U64 × List (Str × Nat × Nat) :=
  (p.info.name, p.info.baseAddress, (p.info.registers.getD []).map fun
    | .register r => (r.info.name, r.info.addressOffset.toNat, (r.info.fields.getD []).length)
    | .cluster .. => ([], 0, 0))

/-- The registers of every timer after the expansion. -/
def timer : List (Str × Nat × Nat) :=
  [("CR".toList, 0x00, 12), ("SR".toList, 0x04, 6), ("INT".toList, 0x10, 2), ("COUNT".toList, 0x20, 0),
    ("MATCH".toList, 0x24, 0), ("PRESCALE_RD".toList, 0x28, 0), ("PRESCALE_WR".toList, 0x28, 0),
    ("RELOAD0".toList, 0x50, 0), ("RELOAD1".toList, 0x54, 0), ("RELOAD2".toList, 0x58, 0),
    ("RELOAD3".toList, 0x5C, 0)]

/-- Expansion gives the three timers the same registers, with the array of reload registers written
out. -/
example : (match parseWithConfig true 100 { expand := true } (armFile "oneToClear".toList) with
    | .ok d => decide (d.peripherals.map summary =
        [("TIMER0".toList, 0x40010000, timer), ("TIMER1".toList, 0x40010100, timer),
          ("TIMER2".toList, 0x40010200, timer)])
    | .error _ => false) = true := by decide +kernel

end Svd.Tests
